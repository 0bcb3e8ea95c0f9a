import Verif.Server.OrderlySpec
import Verif.Server.Atomic
import Verif.Server.SplitAnswers
import Verif.Server.DuoTrace
import Verif.Server.DuoServe

/-!
# Split servers whose threads take turns: invariant (no property statements here)
-/

namespace Xeus

open Spec K

variable {σ : Type} {env : Env} {I : Interp σ}

/-- The messages begun, by what the threads did. -/
theorem handledIn_acts (l : List SEv) : handledIn l = handledIn ((actsIn l).map .act) := by
  induction l with
  | nil => rfl
  | cons x l ih =>
    cases x with
    | act y => cases y <;> simp [handledIn, actsIn, ih]
    | _ => simp [handledIn, actsIn, ih]

namespace Split

theorem events_reach {st : Start σ} {s : Split σ} (h : Reach env I st s) : eventsIn s.log = s.c.w.out := by
  have hw : ∀ {s : Split σ} {t : Chan} {p : K (World σ) Unit} {w' : World σ} {keep : Chan → List Multipart},
      eventsIn s.log = s.c.w.out → s.c.w.out <+: w'.out →
      eventsIn (s.work t p w' keep).log = (s.work t p w' keep).c.w.out := by
    intro s t p w' keep h hp
    simp only [Split.work, eventsIn_append, eventsIn_entries, h]
    exact (prefix_drop hp).symm
  induction h with
  | init => exact st.out.symm
  | step hr hs ih =>
    cases hs with
    | workControl _ p w' keep hp hs _ => exact hw ih (creach_kept (kinv_reach hr).conc hs).1
    | workShell _ _ p w' keep hp hs _ => exact hw ih (creach_kept (kinv_reach hr).conc hs).1
    | _ => simpa [eventsIn_append, eventsIn] using ih

/-- The other thread. -/
def peer : Chan → Chan
  | .shell => .control
  | .control => .shell

/-- What the threads are doing. -/
inductive OInv (env : Env) (I : Interp σ) (st : Start σ) (s : Split σ) : Prop
  | idle : (∀ t, s.c.prog t = .done (.ok ())) → Serial env I st (handledIn s.log) (arrivedOn .shell s.log) s.c.w → OInv env I st s
  | busy {c l₀ l₁ q r B w₀} : s.c.prog (peer c) = .done (.ok ()) → s.log = l₀ ++ .act (.took c q) :: l₁ → handledIn l₁ = [] →
      Serial env I st (handledIn l₀) (arrivedOn .shell l₀) w₀ → ¬ stopAsked w₀ → w₀.shellQ = (if c = .shell then q :: r else r) →
      Walk (dispatch env I q c) { w₀ with shellQ := r } (arrivedOn .shell l₁) B (s.c.prog c) s.c.w → OInv env I st s

theorem OInv.arrive {st : Start σ} {s s' : Split σ} (h : OInv env I st s) (es : List SEv) (B : List Multipart)
    (h2 : s'.log = s.log ++ es) (h3 : handledIn es = []) (h4 : s'.c.w = s.c.w.more (arrivedOn .shell es) B)
    (h5 : s'.c.prog = s.c.prog) : OInv env I st s' := by
  cases h with
  | idle ha h =>
    exact .idle (by rw [h5]; exact ha)
      (by rw [h2, handledIn_append, arrivedOn_append, h3, h4, List.append_nil]; exact h.more _ B)
  | @busy c l₀ l₁ q r B' w₀ a b d e f g i =>
    exact .busy (c := c) (l₀ := l₀) (l₁ := l₁ ++ es) (q := q) (by rw [h5]; exact a) (by rw [h2, b]; simp)
      (by rw [handledIn_append, d, h3]; rfl) e f g (by rw [h4, h5, arrivedOn_append]; exact i.more _ B)

theorem OInv.same {st : Start σ} {s s' : Split σ} (h : OInv env I st s) (h2 : s'.log = s.log) (h4 : s'.c.w = s.c.w)
    (h5 : s'.c.prog = s.c.prog) : OInv env I st s' :=
  h.arrive [] [] (by rw [h2, List.append_nil]) rfl (by rw [h4]; simp [arrivedOn]) h5

theorem OInv.note {st : Start σ} {s s' : Split σ} {e : SEv} (h : OInv env I st s) (h2 : s'.log = s.log ++ [e]) (h3 : handledIn [e] = [])
    (h6 : arrivedOn .shell [e] = []) (h4 : s'.c.w = s.c.w) (h5 : s'.c.prog = s.c.prog) : OInv env I st s' :=
  h.arrive [e] [] h2 h3 (by rw [h4, h6]; simp) h5

/-- While no thread is handling a message. -/
theorem OInv.settled {st : Start σ} {s : Split σ} (h : OInv env I st s) (hp : ∀ t, s.c.prog t = .done (.ok ())) :
    Serial env I st (handledIn s.log) (arrivedOn .shell s.log) s.c.w := by
  cases h with
  | idle _ h => exact h
  | @busy c l₀ l₁ q r B w₀ a b d e f g i =>
    rw [hp c] at i
    obtain ⟨A₁, A₂, B₁, B₂, w₁, hA, hB, h2, h3⟩ := ser_dispatch I q c _ _ _ _ _ i
    have h4 := h3 _ rfl [] (.inl rfl)
    simp only [List.append_nil, World.more_nil] at h4
    rw [b, handledIn_append, arrivedOn_append, h2]
    simp only [handledIn, arrivedOn, d, hA]
    rw [← List.append_assoc]
    cases c with
    | shell => exact ((e.more A₁ B₁).shell q (r ++ A₁) f (by simp [World.more, g]) (by rw [← h4]; rfl)).more A₂ B₂
    | control =>
      refine ((e.more A₁ B₁).control q f ?_).more A₂ B₂
      rw [← h4]
      congr 1
      simp [World.more, g]

/-- A program that can make a step is not done. -/
theorem OInv.work {st : Start σ} {s : Split σ} (h : OInv env I st s) {t : Chan} {p : K (World σ) Unit} {w' : World σ}
    {keep : Chan → List Multipart} (hs : (s.c.prog t).step s.c.w = some (p, w')) : OInv env I st (s.work t p w' keep) := by
  cases h with
  | idle ha _ => rw [ha t] at hs; simp [K.step] at hs
  | @busy c l₀ l₁ q r B w₀ a b d e f g i =>
    have hc : c = t := by
      refine Classical.byContradiction fun hne => ?_
      have : peer c = t := by cases c <;> cases t <;> simp_all [peer]
      rw [this] at a
      rw [a] at hs
      simp [K.step] at hs
    subst hc
    refine .busy (c := c) (l₀ := l₀) (l₁ := l₁ ++ (entries c s.c.w w').map .act) (B := B) (q := q) ?_ (by simp only [Split.work, b]; simp)
      (by rw [handledIn_append, d, handledIn_entries]; rfl) e f g ?_
    · show setProg s.c c p (peer c) = _
      unfold setProg
      rw [if_neg (by cases c <;> simp [peer])]
      exact a
    · rw [arrivedOn_append, arrivedOn_acts, List.append_nil]
      simpa [Split.work, setProg] using i.step hs

theorem OInv.step {st : Start σ} {s s' : Split σ} {a : SWho} (hr : Reach env I st s) (h : OInv env I st s) (hs : Step env I a s s')
    (hc : handledIn s'.log = handledIn s.log ∨ (¬ stopAsked s.c.w ∧ (s'.kpc ≠ .busy ∨ ∀ r, s'.spc ≠ .busy r))) : OInv env I st s' := by
  have hk := kinv_reach hr
  have took : ∀ {c : Chan} {q : Multipart} {P : Prop}, (handledIn (s.log ++ [.act (.took c q)]) = handledIn s.log ∨ P) → P := by
    intro c q P h
    rcases h with h | h
    · rw [handledIn_append] at h; simp [handledIn] at h
    · exact h
  cases hs with
  | arriveShell _ q => exact h.arrive [.arrived .shell q] [] rfl rfl (by simp [World.more, arrivedOn]) rfl
  | arriveControl _ q => exact h.arrive [.arrived .control q] [] rfl rfl (by simp [arrivedOn]) rfl
  | arriveStdin _ q => exact h.arrive [] [q] (by simp) rfl (by simp [World.more, arrivedOn]) rfl
  | start _ hp => exact h.note rfl rfl rfl rfl rfl
  | stopSh _ hp => exact h.note rfl rfl rfl rfl rfl
  | workControl _ p w' keep hp hs _ => exact h.work hs
  | workShell _ _ p w' keep hp hs _ => exact h.work hs
  | takeControl _ q r hp hq =>
    obtain ⟨h2, h1⟩ := took hc
    have i1 := hk.idleC (by simp [hp])
    have i2 := hk.idleS (by rcases h1 with h1 | h1; exact absurd rfl h1; exact h1)
    have hz := h.settled fun t => by cases t; exact i2; exact i1
    refine .busy (c := .control) (l₁ := []) (B := []) (r := s.c.w.shellQ) ?_ rfl rfl hz h2 (by simp) ?_
    · simpa [peer, setProg] using i2
    · simp only [setProg, if_true]
      exact .refl
  | takeShell _ r1 q r hp hq =>
    obtain ⟨h2, h1⟩ := took hc
    have i1 := hk.idleS (by simp [hp])
    have i2 := hk.idleC (by rcases h1 with h1 | h1; exact h1; exact absurd rfl (h1 r1))
    have hz := h.settled fun t => by cases t; exact i1; exact i2
    refine .busy (c := .shell) (l₁ := []) (B := []) (r := r) ?_ rfl rfl hz h2 (by simpa using hq) ?_
    · simpa [peer, setProg] using i2
    · simp only [setProg, if_true]
      exact .refl
  | _ => exact h.same rfl rfl rfl

/-- A thread that is handling a message has received one. -/
theorem busy_took {st : Start σ} {s : Split σ} (h : Reach env I st s) :
    (s.kpc = .busy → ∃ q, (Chan.control, q) ∈ handledIn s.log) ∧ (∀ r, s.spc = .busy r → ∃ q, (Chan.shell, q) ∈ handledIn s.log) := by
  have more : ∀ {l es : List SEv} {c : Chan}, (∃ q, (c, q) ∈ handledIn l) → ∃ q, (c, q) ∈ handledIn (l ++ es) := by
    rintro l es c ⟨q, h⟩
    exact ⟨q, by rw [handledIn_append]; exact List.mem_append_left _ h⟩
  have new : ∀ {l : List SEv} {c : Chan} {q : Multipart}, ∃ q', (c, q') ∈ handledIn (l ++ [.act (.took c q)]) := by
    intro l c q
    exact ⟨q, by rw [handledIn_append]; simp [handledIn]⟩
  induction h with
  | init => exact ⟨fun h => by simp [init] at h, fun r h => by simp [init] at h⟩
  | step hr hs ih =>
    obtain ⟨h1, h2⟩ := ih
    cases hs with
    | takeControl _ q r hp hq => exact ⟨fun _ => new, fun r h => more (h2 r h)⟩
    | takeShell _ r1 q r hp hq => exact ⟨fun h => more (h1 h), fun _ _ => new⟩
    | workControl _ p w' keep hp hs _ => exact ⟨fun h => more (h1 h), fun r h => more (h2 r h)⟩
    | workShell _ _ p w' keep hp hs _ => exact ⟨fun h => more (h1 h), fun r h => more (h2 r h)⟩
    | arriveShell _ q => exact ⟨fun h => more (h1 h), fun r h => more (h2 r h)⟩
    | arriveControl _ q => exact ⟨fun h => more (h1 h), fun r h => more (h2 r h)⟩
    | start _ hp => exact ⟨fun h => by simp at h, fun r h => more (h2 r h)⟩
    | stopSh _ hp => exact ⟨fun h => by simp at h, fun r h => more (h2 r h)⟩
    | _ => first
      | exact ⟨h1, h2⟩
      | exact ⟨fun h => by simp at h, h2⟩
      | exact ⟨h1, fun r h => by simp at h⟩

end Split

namespace Duo

theorem between_abs (s : Duo σ) : (∀ r, (abs env I s).spc ≠ .busy r) ↔ Between s .shell := by
  show (∀ r, s.spcOf ≠ .busy r) ↔ ∀ r, s.spc ≠ .busy r
  unfold spcOf
  split <;> simp_all

theorem orderly_reach {st : Start σ} {s : Duo σ} (h : InTurn env I st s) : Reach env I st s := by
  induction h with
  | start => exact .init
  | step _ hs _ _ ih => exact ih.step hs

theorem orderly_inv (hd : Sound env I) {st : Start σ} {s : Duo σ} (h : InTurn env I st s) : Split.OInv env I st (abs env I s) := by
  induction h with
  | start => rw [abs_init]; exact .idle (fun _ => rfl) .start
  | @step s s' a ho hs h1 h2 ih =>
    have hr := orderly_reach ho
    have hx := abs_reach hd hr
    have h1' : (abs env I s').kpc ≠ .busy ∨ ∀ r, (abs env I s').spc ≠ .busy r := h1.imp id (between_abs s').2
    rw [served_eq, served_eq] at h2
    rcases sim (inv_reach hd hr) hs with ⟨h, _⟩ | h | ⟨h, _⟩ | ⟨t, ht, h, h', _⟩
    · rw [h]; exact ih
    · exact ih.step hx h (h2.imp_right fun h => ⟨h, h1'⟩)
    · exact ih.step hx h (h2.imp_right fun h => ⟨h, h1'⟩)
    · have hxt := hx.step h
      have e1 : handledIn t.log = handledIn (abs env I s).log := by
        rw [handledIn_acts, Split.acts_reach hxt, ht, ← Split.acts_reach hx, ← handledIn_acts]
      refine (ih.step hx h (.inl e1)).step hxt h' ?_
      rw [e1, ht]
      exact h2.imp_right fun h => ⟨h, h1'⟩

theorem events_reach (hd : Sound env I) {st : Start σ} {s : Duo σ} (h : Reach env I st s) : eventsIn (served s.log) = s.w.out := by
  rw [served_eq]
  exact Split.events_reach (abs_reach hd h)

theorem served_step {a : SWho} {s s' : Duo σ} (h : Step env I a s s') : served s.log <+: served s'.log := by
  rw [served_eq, served_eq]
  exact evs_prefix (log_step h)

theorem handled_step {a : SWho} {s s' : Duo σ} (h : Step env I a s s') : handledIn (served s.log) <+: handledIn (served s'.log) := by
  obtain ⟨x, hx⟩ := served_step h
  rw [← hx, handledIn_append]
  exact List.prefix_append _ _

theorem stop_step (hd : Sound env I) {st : Start σ} {a : SWho} {s s' : Duo σ} (hr : Reach env I st s) (h : Step env I a s s')
    (hs : stopAsked s.w) : stopAsked s'.w := by
  obtain ⟨x, hx⟩ := served_step h
  unfold stopAsked at *
  rw [← events_reach hd (hr.step h), ← hx, eventsIn_append, events_reach hd hr]
  exact List.mem_append_left _ hs

/-- A thread whose channel no message was received from is not handling one. -/
theorem between_unused (hd : Sound env I) {st : Start σ} {s : Duo σ} (hr : Reach env I st s) {t : Chan}
    (h : ∀ q, (t, q) ∉ handledIn (served s.log)) : Between s t := by
  obtain ⟨h1, h2⟩ := Split.busy_took (abs_reach hd hr)
  rw [served_eq] at h
  cases t with
  | control =>
    intro hb
    obtain ⟨q, hq⟩ := h1 hb
    exact h q hq
  | shell =>
    refine (between_abs (env := env) (I := I) s).1 fun r hb => ?_
    obtain ⟨q, hq⟩ := h2 r hb
    exact h q hq

/-- The thread that receives a message has none in hand. -/
theorem took_between {a : SWho} {s s' : Duo σ} (h : Step env I a s s') (hn : handledIn (served s'.log) ≠ handledIn (served s.log)) :
    ∃ t q, handledIn (served s'.log) = handledIn (served s.log) ++ [(t, q)] ∧ Between s t ∧
      ∀ t', t' ≠ t → (Between s t' ↔ Between s' t') := by
  have quiet : ∀ {l es : List DEv}, handledIn (evsOf es) = [] → handledIn (served (l ++ es)) = handledIn (served l) := by
    intro l es he
    rw [served_eq, served_eq, evsOf_append, handledIn_append, he, List.append_nil]
  have acts : ∀ {l : List DEv} {t : Chan} {w w' : World σ},
      handledIn (served (l ++ (entries t w w').map fun a => .ev (.act a))) = handledIn (served l) :=
    fun {_ t w w'} => quiet (by rw [evsOf_map, handledIn_entries])
  cases h with
  | takeControl _ q r hp hq =>
    refine ⟨.control, q, ?_, by show s.kpc ≠ _; rw [hp]; simp, fun t' ht => ?_⟩
    · show handledIn (served (s.log ++ _)) = _
      rw [served_eq, served_eq, evsOf_append, handledIn_append]; rfl
    · cases t' with
      | control => exact absurd rfl ht
      | shell => exact Iff.rfl
  | takeShell _ r1 q r hp hq =>
    refine ⟨.shell, q, ?_, by show ∀ r, s.spc ≠ .busy r; rw [hp]; simp, fun t' ht => ?_⟩
    · show handledIn (served (s.log ++ _)) = _
      rw [served_eq, served_eq, evsOf_append, handledIn_append]; rfl
    · cases t' with
      | control => exact Iff.rfl
      | shell => exact absurd rfl ht
  | workControl _ p w' keep hp hs _ => exact absurd acts hn
  | workShell _ r1 p w' keep hp hs _ => exact absurd acts hn
  | workInternal _ m p w' keep hp hm hs _ => exact absurd acts hn
  | _ => first
    | exact absurd rfl hn
    | exact absurd (quiet rfl) hn

end Duo

end Xeus
