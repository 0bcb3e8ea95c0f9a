import Verif.Server.DuoServe

/-!
# The split servers with internal requests: the order of the exchanges (no property statements here)
-/

namespace Xeus

open Spec K

variable {σ : Type} {env : Env} {I : Interp σ}

theorem exchanges_append (a b : List DEv) : exchanges (a ++ b) = exchanges a ++ exchanges b := by
  induction a with
  | nil => rfl
  | cons x a ih => cases x <;> simp [exchanges, ih]

theorem served_eq (l : List DEv) : served l = evsOf l := by
  induction l with
  | nil => rfl
  | cons x l ih =>
    cases x with
    | ev e => show e :: served l = e :: evsOf l; rw [ih]
    | _ => exact ih

theorem exchanges_map (l : List Act) : exchanges (l.map fun a => .ev (.act a)) = [] := by
  induction l with
  | nil => rfl
  | cons x l ih => exact ih

/-- After a certain event and until another one, things do not happen. -/
def Hush (start stop bad : DEv → Bool) (during : Prop) (l : List DEv) : Prop :=
  ∀ a x b, l = a ++ x :: b → start x = true → (∀ y ∈ b, stop y = false) → during ∧ ∀ y ∈ b, bad y = false

theorem append_split {α : Type} {l es a b : List α} {x : α} (h : l ++ es = a ++ x :: b) :
    (∃ b', l = a ++ x :: b' ∧ b = b' ++ es) ∨ ∃ a', a = l ++ a' ∧ es = a' ++ x :: b := by
  rcases List.append_eq_append_iff.1 h with ⟨a', h1, h2⟩ | ⟨c, h1, h2⟩
  · exact .inr ⟨a', h1, h2⟩
  · cases c with
    | nil => exact .inr ⟨[], by simpa using h1.symm, by simpa using h2.symm⟩
    | cons y c =>
      rw [List.cons_append] at h2
      injection h2 with h2 h3
      subst h2
      exact .inl ⟨c, h1, h3⟩

theorem Hush.more {start stop bad : DEv → Bool} {o o' : Prop} {l es : List DEv} (h : Hush start stop bad o l)
    (hs : ∀ y ∈ es, start y = false) (hx : (∃ y ∈ es, stop y = true) ∨ (o → o' ∧ ∀ y ∈ es, bad y = false)) :
    Hush start stop bad o' (l ++ es) := by
  intro a x b hl hst hsp
  rcases append_split hl with ⟨b', h1, h2⟩ | ⟨a', h1, h2⟩
  · subst h2
    obtain ⟨h3, h4⟩ := h a x b' h1 hst fun y hy => hsp y (List.mem_append_left _ hy)
    rcases hx with ⟨y, hy, hy'⟩ | hx
    · rw [hsp y (List.mem_append_right _ hy)] at hy'; cases hy'
    · obtain ⟨h5, h6⟩ := hx h3
      refine ⟨h5, fun y hy => ?_⟩
      rcases List.mem_append.1 hy with hy | hy
      · exact h4 y hy
      · exact h6 y hy
  · rw [hs x (by rw [h2]; simp)] at hst; cases hst

theorem Hush.opened {start stop bad : DEv → Bool} {o o' : Prop} {l : List DEv} {x : DEv} (h : Hush start stop bad o l)
    (ho : o') (hb : bad x = false) : Hush start stop bad o' (l ++ [x]) := by
  intro a y b hl hst hsp
  rcases append_split hl with ⟨b', h1, h2⟩ | ⟨a', h1, h2⟩
  · subst h2
    obtain ⟨h3, h4⟩ := h a y b' h1 hst fun y hy => hsp y (List.mem_append_left _ hy)
    refine ⟨ho, fun z hz => ?_⟩
    rcases List.mem_append.1 hz with hz | hz
    · exact h4 z hz
    · rw [List.mem_singleton.1 hz]; exact hb
  · refine ⟨ho, ?_⟩
    cases a' with
    | nil => simp at h2; rw [h2.2]; simp
    | cons _ a' => simp at h2

theorem Hush.same {start stop bad : DEv → Bool} {o o' : Prop} {l : List DEv} (h : Hush start stop bad o l) (ho : o → o') :
    Hush start stop bad o' l := fun a x b h1 h2 h3 => ⟨ho (h a x b h1 h2 h3).1, (h a x b h1 h2 h3).2⟩

def isAsked : DEv → Bool
  | .asked _ => true
  | _ => false

def isBegan : DEv → Bool
  | .began _ => true
  | _ => false

def isEnded : DEv → Bool
  | .ended _ => true
  | _ => false

def isGot : DEv → Bool
  | .got _ => true
  | _ => false

namespace Duo

/-- The exchange under way. -/
def phase (s : Duo σ) : List DEv :=
  if s.calling = true then
    match s.cprog with
    | .ask t _ =>
      if s.inner = none then
        match s.rep with
        | some r => [.asked t, .began t, .ended r]
        | none => [.asked t]
      else [.asked t, .began t]
    | _ => []
  else []

structure TInv (s : Duo σ) : Prop where
  rounds : ∃ xs : List (Frame × Frame), exchanges s.log = xs.flatMap round ++ phase s
  serving : Hush isBegan isEnded (byThread .shell) (s.inner ≠ none) s.log
  sent : Hush isAsked isBegan (byThread .control) (s.calling = true ∧ s.cmd ≠ none) s.log
  replied : Hush isEnded isGot (byThread .control) (s.calling = true ∧ s.rep ≠ none) s.log

theorem phase_same {s s' : Duo σ} (h1 : s'.calling = s.calling) (h2 : s'.cprog = s.cprog) (h3 : s'.inner = s.inner)
    (h4 : s'.rep = s.rep) : phase s' = phase s := by
  unfold phase
  rw [h1, h2, h3, h4]

theorem phase_idle {s : Duo σ} (h : s.calling = false) : phase s = [] := by
  unfold phase
  rw [h]
  rfl

theorem TInv.same {s s' : Duo σ} (h : TInv s) (h0 : s'.log = s.log) (h1 : s'.calling = s.calling) (h2 : s'.cprog = s.cprog)
    (h3 : s'.inner = s.inner) (h4 : s'.rep = s.rep) (h5 : s'.cmd = s.cmd) : TInv s' := by
  obtain ⟨g1, g2, g3, g4⟩ := h
  refine ⟨?_, ?_, ?_, ?_⟩
  · rw [h0, phase_same h1 h2 h3 h4]; exact g1
  · rw [h0, h3]; exact g2
  · rw [h0, h1, h5]; exact g3
  · rw [h0, h1, h4]; exact g4

/-- Something else happens. -/
theorem TInv.note {s s' : Duo σ} {e : SEv} (h : TInv s) (h0 : s'.log = s.log ++ [.ev e]) (he : ∀ a, e ≠ .act a)
    (h1 : s'.calling = s.calling) (h2 : s'.cprog = s.cprog) (h3 : s'.inner = s.inner) (h4 : s'.rep = s.rep) (h5 : s'.cmd = s.cmd) :
    TInv s' := by
  obtain ⟨g1, g2, g3, g4⟩ := h
  have hb : ∀ t y, y ∈ [DEv.ev e] → byThread t y = false := by
    intro t y hy
    rw [List.mem_singleton.1 hy]
    cases e <;> first | rfl | exact absurd rfl (he _)
  refine ⟨?_, ?_, ?_, ?_⟩
  · rw [h0, phase_same h1 h2 h3 h4, exchanges_append]; simpa [exchanges] using g1
  · rw [h0, h3]; exact g2.more (by simp [isBegan]) (.inr fun h => ⟨h, hb _⟩)
  · rw [h0, h1, h5]; exact g3.more (by simp [isAsked]) (.inr fun h => ⟨h, hb _⟩)
  · rw [h0, h1, h4]; exact g4.more (by simp [isEnded]) (.inr fun h => ⟨h, hb _⟩)

/-- A thread acts. -/
theorem TInv.work {s s' : Duo σ} {as : List Act} {t : Chan} (h : TInv s) (h0 : s'.log = s.log ++ as.map fun a => .ev (.act a))
    (ht : ∀ a ∈ as, a.thread = t) (hp : phase s' = phase s)
    (h3 : s.inner ≠ none → s'.inner ≠ none ∧ t ≠ .shell)
    (h4 : s.calling = true ∧ s.cmd ≠ none → (s'.calling = true ∧ s'.cmd ≠ none) ∧ t ≠ .control)
    (h5 : s.calling = true ∧ s.rep ≠ none → (s'.calling = true ∧ s'.rep ≠ none) ∧ t ≠ .control) : TInv s' := by
  obtain ⟨g1, g2, g3, g4⟩ := h
  have hb : ∀ t', t ≠ t' → ∀ y ∈ as.map fun a => DEv.ev (.act a), byThread t' y = false := by
    intro t' hne y hy
    obtain ⟨a, ha, rfl⟩ := List.mem_map.1 hy
    show decide (a.thread = t') = false
    rw [ht a ha]
    exact decide_eq_false hne
  have hst : ∀ f : DEv → Bool, (∀ e, f (.ev e) = false) → ∀ y ∈ as.map fun a => DEv.ev (.act a), f y = false := by
    intro f hf y hy
    obtain ⟨a, ha, rfl⟩ := List.mem_map.1 hy
    exact hf _
  refine ⟨?_, ?_, ?_, ?_⟩
  · rw [h0, hp, exchanges_append, exchanges_map, List.append_nil]; exact g1
  · rw [h0]; exact g2.more (hst _ fun _ => rfl) (.inr fun h => ⟨(h3 h).1, hb _ (h3 h).2⟩)
  · rw [h0]; exact g3.more (hst _ fun _ => rfl) (.inr fun h => ⟨(h4 h).1, hb _ (h4 h).2⟩)
  · rw [h0]; exact g4.more (hst _ fun _ => rfl) (.inr fun h => ⟨(h5 h).1, hb _ (h5 h).2⟩)

theorem trace_reach (hd : Sound env I) {st : Start σ} {s : Duo σ} (h : Reach env I st s) : TInv s := by
  induction h with
  | init => exact ⟨⟨[], rfl⟩, fun a x b h => by simp [init] at h, fun a x b h => by simp [init] at h, fun a x b h => by simp [init] at h⟩
  | @step s s' a hr hs ih =>
    have hi := inv_reach hd hr
    have hcal : s.calling = true → s.kpc = .busy ∧ ∃ t k, s.cprog = .ask t k := by
      intro h
      cases hi.link <;> simp_all
    have free : s.kpc ≠ .busy → s.calling = false := not_calling hi
    cases hs with
    | arriveShell _ q => exact ih.note rfl (by simp) rfl rfl rfl rfl rfl
    | arriveControl _ q => exact ih.note rfl (by simp) rfl rfl rfl rfl rfl
    | arriveStdin _ q => exact ih.same rfl rfl rfl rfl rfl rfl
    | ping _ i m => exact ih.same rfl rfl rfl rfl rfl rfl
    | publisher _ b hb => exact ih.same rfl rfl rfl rfl rfl rfl
    | heartbeat _ b hb => exact ih.same rfl rfl rfl rfl rfl rfl
    | start _ hp => exact ih.note rfl (by simp) rfl rfl rfl rfl rfl
    | test _ hp _ => exact ih.same rfl rfl rfl rfl rfl rfl
    | leave _ hp _ => exact ih.same rfl rfl rfl rfl rfl rfl
    | takeControl _ q r hp hq =>
      have hc := free (by simp [hp])
      refine ih.work (as := [.took .control q]) (t := .control) rfl (by simp [Act.thread]) ?_ (fun h => ⟨h, by simp⟩) ?_ ?_
      · rw [phase_idle hc, phase_idle (by exact hc)]
      · rintro ⟨h, _⟩; rw [hc] at h; cases h
      · rintro ⟨h, _⟩; rw [hc] at h; cases h
    | workControl _ p w' keep hp hs hk =>
      have hc : s.calling = false := by
        cases hc : s.calling with
        | false => rfl
        | true =>
          obtain ⟨_, t, k, h⟩ := hcal hc
          rw [h] at hs; cases hs
      refine ih.work (as := entries .control s.w w') (t := .control) rfl (entries_thread _ _ _) ?_ (fun h => ⟨h, by simp⟩) ?_ ?_
      · rw [phase_idle hc, phase_idle (by exact hc)]
      · rintro ⟨h, _⟩; rw [hc] at h; cases h
      · rintro ⟨h, _⟩; rw [hc] at h; cases h
    | call _ text k hp hc hk =>
      have hq : s.inner = none ∧ s.rep = none := by cases hi.link <;> simp_all
      obtain ⟨⟨xs, g1⟩, g2, g3, g4⟩ := ih
      rw [phase_idle hc, List.append_nil] at g1
      refine ⟨⟨xs, ?_⟩, ?_, ?_, ?_⟩
      · rw [exchanges_append, g1]
        unfold phase
        simp only [if_true, hk, hq.1, hq.2]
        rfl
      · exact g2.more (by simp [isBegan]) (.inr fun h => absurd hq.1 h)
      · exact g3.opened ⟨rfl, by simp⟩ rfl
      · exact g4.more (by simp [isEnded]) (.inr fun h => absurd hq.2 h.2)
    | answer _ text k r hp hc hk hr' =>
      have hq : s.inner = none ∧ s.cmd = none := by cases hi.link <;> simp_all
      obtain ⟨⟨xs, g1⟩, g2, g3, g4⟩ := ih
      refine ⟨⟨xs ++ [(text, r)], ?_⟩, ?_, ?_, ?_⟩
      · have h1 : phase s = [.asked text, .began text, .ended r] := by
          unfold phase
          simp only [hc, if_true, hk, hq.1, hr']
        rw [exchanges_append, g1, h1, phase_idle (s := { s with
          calling := false, rep := none, cprog := k (.ok r), log := s.log ++ [.got r] }) rfl]
        simp [List.flatMap_append, round, exchanges]
      · exact g2.more (by simp [isBegan]) (.inr fun h => absurd hq.1 h)
      · exact g3.more (by simp [isAsked]) (.inr fun h => absurd hq.2 h.2)
      · exact g4.more (by simp [isEnded]) (.inl ⟨_, List.mem_singleton.2 rfl, rfl⟩)
    | doneControl _ hp hd => exact ih.same rfl rfl rfl rfl rfl rfl
    | stopSh _ hp =>
      have hc := free (by simp [hp])
      obtain ⟨⟨xs, g1⟩, g2, g3, g4⟩ := ih
      refine ⟨⟨xs, ?_⟩, ?_, ?_, ?_⟩
      · rw [exchanges_append, g1, phase_idle hc, phase_idle (by exact hc)]; simp [exchanges]
      · exact g2.more (by simp [isBegan]) (.inr fun h => ⟨h, by simp [byThread]⟩)
      · exact g3.more (by simp [isAsked]) (.inr fun h => by rw [hc] at h; cases h.1)
      · exact g4.more (by simp [isEnded]) (.inr fun h => by rw [hc] at h; cases h.1)
    | waitSh _ hp _ =>
      have hc := free (by simp [hp])
      obtain ⟨⟨xs, g1⟩, g2, g3, g4⟩ := ih
      refine ⟨⟨xs, ?_⟩, g2, g3, ?_⟩
      · rw [g1, phase_idle hc, phase_idle (by exact hc)]
      · exact g4.same fun h => by rw [hc] at h; cases h.1
    | stopPub _ hp => exact ih.same rfl rfl rfl rfl rfl rfl
    | waitPub _ hp _ => exact ih.same rfl rfl rfl rfl rfl rfl
    | stopHb _ hp => exact ih.same rfl rfl rfl rfl rfl rfl
    | waitHb _ hp _ => exact ih.same rfl rfl rfl rfl rfl rfl
    | notify _ hp => exact ih.same rfl rfl rfl rfl rfl rfl
    | sample0 _ r hp h => exact ih.same rfl rfl rfl rfl rfl rfl
    | sample1 _ r0 hp _ => exact ih.same rfl rfl rfl rfl rfl rfl
    | nothing _ hp _ => exact ih.same rfl rfl rfl rfl rfl rfl
    | takeShell _ r1 q r hp h =>
      have hn : s.inner = none := by cases hi.link <;> simp_all
      exact ih.work (as := [.took .shell q]) (t := .shell) rfl (by simp [Act.thread]) (phase_same rfl rfl rfl rfl)
        (fun h => absurd hn h) (fun h => ⟨h, by simp⟩) (fun h => ⟨h, by simp⟩)
    | skip _ r1 hp => exact ih.same rfl rfl rfl rfl rfl rfl
    | workShell _ r1 p w' keep hp h' hk' =>
      have hn : s.inner = none := by cases hi.link <;> simp_all
      exact ih.work (as := entries .shell s.w w') (t := .shell) rfl (entries_thread _ _ _) (phase_same rfl rfl rfl rfl)
        (fun h => absurd hn h) (fun h => ⟨h, by simp⟩) (fun h => ⟨h, by simp⟩)
    | doneShell _ r1 hp _ => exact ih.same rfl rfl rfl rfl rfl rfl
    | again _ hp => exact ih.same rfl rfl rfl rfl rfl rfl
    | recvStop _ hp hm =>
      have hq : s.calling = false := by cases hi.link <;> simp_all
      obtain ⟨⟨xs, g1⟩, g2, g3, g4⟩ := ih
      refine ⟨⟨xs, ?_⟩, g2, ?_, g4⟩
      · rw [g1, phase_idle hq, phase_idle (by exact hq)]
      · exact g3.same fun h => by rw [hq] at h; cases h.1
    | recvInternal _ text hp hm ht =>
      have hq : s.calling = true ∧ s.rep = none ∧ s.inner = none ∧ ∃ k, s.cprog = .ask text k := by
        cases hi.link <;> simp_all
      obtain ⟨hc, hrp, hin, k, hk⟩ := hq
      obtain ⟨⟨xs, g1⟩, g2, g3, g4⟩ := ih
      refine ⟨⟨xs, ?_⟩, ?_, ?_, ?_⟩
      · rw [exchanges_append, g1]
        unfold phase
        simp [hc, hk, hin, hrp, exchanges]
      · exact g2.opened (by simp) rfl
      · exact g3.more (by simp [isAsked]) (.inl ⟨_, List.mem_singleton.2 rfl, rfl⟩)
      · exact g4.more (by simp [isEnded]) (.inr fun h => absurd hrp h.2)
    | workInternal _ m p w' keep hp hm h' hk' =>
      have hq : s.calling = true ∧ s.rep = none ∧ s.cmd = none := by cases hi.link <;> simp_all
      obtain ⟨hc, hrp, hcm⟩ := hq
      refine ih.work (as := entries .control s.w w') (t := .control) rfl (entries_thread _ _ _) ?_
        (fun h => ⟨by simp, by simp⟩) (fun h => absurd hcm h.2) (fun h => absurd hrp h.2)
      unfold phase
      simp [effect, hm]
    | doneInternal _ r hp hm =>
      have hq : s.calling = true ∧ s.rep = none ∧ s.cmd = none ∧ ∃ t k, s.cprog = .ask t k := by cases hi.link <;> simp_all
      obtain ⟨hc, hrp, hcm, t, k, hk⟩ := hq
      obtain ⟨⟨xs, g1⟩, g2, g3, g4⟩ := ih
      refine ⟨⟨xs, ?_⟩, ?_, ?_, ?_⟩
      · rw [exchanges_append, g1]
        unfold phase
        simp [hc, hk, hm, exchanges]
      · exact g2.more (by simp [isBegan]) (.inl ⟨_, List.mem_singleton.2 rfl, rfl⟩)
      · exact g3.more (by simp [isAsked]) (.inr fun h => absurd hcm h.2)
      · exact g4.opened ⟨hc, by simp⟩ rfl
    | sendCtl _ hp hm =>
      have hq : s.calling = false := by cases hi.link <;> simp_all
      obtain ⟨⟨xs, g1⟩, g2, g3, g4⟩ := ih
      refine ⟨⟨xs, ?_⟩, g2, g3, ?_⟩
      · rw [g1, phase_idle hq, phase_idle (by exact hq)]
      · exact g4.same fun h => by rw [hq] at h; cases h.1

/-- A request in complete rounds has its answer. -/
theorem round_answer {xs : List (Frame × Frame)} {u v : List DEv} {t : Frame} (h : xs.flatMap round = u ++ .asked t :: v) :
    ∃ r v', v = .began t :: .ended r :: .got r :: v' := by
  induction xs generalizing u with
  | nil => simp at h
  | cons x xs ih =>
    obtain ⟨t', r'⟩ := x
    simp only [List.flatMap_cons, round, List.cons_append, List.nil_append] at h
    match u, h with
    | [], h => simp at h; obtain ⟨rfl, rfl⟩ := h; exact ⟨_, _, rfl⟩
    | [_], h => simp at h
    | [_, _], h => simp at h
    | [_, _, _], h => simp at h
    | _ :: _ :: _ :: _ :: u, h =>
      simp only [List.cons_append] at h
      injection h with _ h
      injection h with _ h
      injection h with _ h
      injection h with _ h
      exact ih h

end Duo

end Xeus
