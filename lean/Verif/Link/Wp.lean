import Verif.Link.Spec

/-!
# Programs run interleaved: a program logic

No property statements here.  `G` is what is known about the state from one access to the next, whatever else happens in
between.
-/

namespace Xeus.Link

open Xeus K

section
variable {S G α β : Type} {ok : G → S → Prop} {mv : G → S → S → G → Prop}

/-- Every access, made in a state about which `g` is known, moves along `mv`; the outcome satisfies `Q`. -/
def Wp (ok : G → S → Prop) (mv : G → S → S → G → Prop) (Q : G → Res α → Prop) : K S α → G → Prop
  | .done r, g => Q g r
  | .act f k, g => ∀ s, ok g s → (f s).1 ≠ .hang → ∃ g', mv g s (f s).2 g' ∧
      (∀ b, (f s).1 = .ok b → Wp ok mv Q (k (.ok b)) g') ∧ (∀ e, (f s).1 = .exc e → Wp ok mv Q (k (.error e)) g') ∧
      (∀ w, (f s).1 = .ub w → Q g' (.ub w))

theorem Wp.mono {Q Q' : G → Res α → Prop} (h : ∀ g r, Q g r → Q' g r) {p : K S α} {g : G} (hp : Wp ok mv Q p g) :
    Wp ok mv Q' p g := by
  induction p generalizing g with
  | done r => exact h g r hp
  | act f k ih =>
    intro s hs hh
    obtain ⟨g', h1, h2, h3, h4⟩ := hp s hs hh
    exact ⟨g', h1, fun b hb => ih _ (h2 b hb), fun e he => ih _ (h3 e he), fun w hw => h _ _ (h4 w hw)⟩

/-- What must hold of the first part of a composition. -/
def Then (ok : G → S → Prop) (mv : G → S → S → G → Prop) (Q : G → Res β → Prop) (g : α → K S β) : G → Res α → Prop :=
  fun x r =>
    match r with
    | .ok a => Wp ok mv Q (g a) x
    | .exc e => Q x (.exc e)
    | .ub w => Q x (.ub w)
    | .hang => Q x .hang

theorem Wp.bind {Q : G → Res β → Prop} {p : K S α} {q : α → K S β} {g : G} (hp : Wp ok mv (Then ok mv Q q) p g) :
    Wp ok mv Q (p >>= q) g := by
  show Wp ok mv Q (p.bind q) g
  induction p generalizing g with
  | done r => cases r <;> exact hp
  | act f k ih =>
    intro s hs hh
    obtain ⟨g', h1, h2, h3, h4⟩ := hp s hs hh
    exact ⟨g', h1, fun b hb => ih _ (h2 b hb), fun e he => ih _ (h3 e he), fun w hw => h4 w hw⟩

theorem Wp.attempt {Q : G → Res (Except Exc α) → Prop} {p : K S α} {g : G}
    (hp : Wp ok mv (fun x r => match r with
      | .ok a => Q x (.ok (.ok a))
      | .exc e => Q x (.ok (.error e))
      | .ub w => Q x (.ub w)
      | .hang => Q x .hang) p g) : Wp ok mv Q p.attempt g := by
  induction p generalizing g with
  | done r => cases r <;> exact hp
  | act f k ih =>
    intro s hs hh
    obtain ⟨g', h1, h2, h3, h4⟩ := hp s hs hh
    exact ⟨g', h1, fun b hb => ih _ (h2 b hb), fun e he => ih _ (h3 e he), fun w hw => h4 w hw⟩

theorem Wp.pure {Q : G → Res α → Prop} {a : α} {g : G} (h : Q g (.ok a)) : Wp ok mv Q (Pure.pure a : K S α) g := h
theorem Wp.throw {Q : G → Res α → Prop} {e : Exc} {g : G} (h : Q g (.exc e)) : Wp ok mv Q (K.throw e : K S α) g := h
theorem Wp.ofRes {Q : G → Res α → Prop} {r : Res α} {g : G} (h : Q g r) : Wp ok mv Q (K.ofRes r : K S α) g := h

theorem Wp.lift {Q : G → Res α → Prop} {f : S → Res α × S} {g : G}
    (h : ∀ s, ok g s → (f s).1 ≠ .hang → ∃ g', mv g s (f s).2 g' ∧ Q g' (f s).1) : Wp ok mv Q (K.lift f) g := by
  intro s hs hh
  obtain ⟨g', h1, h2⟩ := h s hs hh
  exact ⟨g', h1, fun b hb => by rw [hb] at h2; exact h2, fun e he => by rw [he] at h2; exact h2, fun w hw => by rw [hw] at h2; exact h2⟩

/-- A read. -/
theorem Wp.read {Q : G → Res α → Prop} {f : S → α} {g : G} (hmv : ∀ s, ok g s → mv g s s g) (h : ∀ s, ok g s → Q g (.ok (f s))) :
    Wp ok mv Q (K.read f) g :=
  Wp.lift fun s hs _ => ⟨g, hmv s hs, h s hs⟩

theorem Wp.readR {Q : G → Res α → Prop} {f : S → Res α} {g : G} (hmv : ∀ s, ok g s → mv g s s g)
    (h : ∀ s, ok g s → f s ≠ .hang → Q g (f s)) : Wp ok mv Q (K.readR f) g :=
  Wp.lift fun s hs hh => ⟨g, hmv s hs, h s hs hh⟩

theorem Wp.modify {Q : G → Res Unit → Prop} {f : S → S} {g g' : G} (hmv : ∀ s, ok g s → mv g s (f s) g') (h : Q g' (.ok ())) :
    Wp ok mv Q (K.modify f) g :=
  Wp.lift fun s hs _ => ⟨g', hmv s hs, h⟩

/-- One step of a program. -/
theorem Wp.step {Q : G → Res α → Prop} {p p' : K S α} {g : G} {s s' : S} (hp : Wp ok mv Q p g) (hs : ok g s) (hr : Ready p s)
    (h : p.step s = some (p', s')) : ∃ g', mv g s s' g' ∧ Wp ok mv Q p' g' := by
  cases p with
  | done r => exact absurd hr id
  | act f k =>
    obtain ⟨g', h1, h2, h3, h4⟩ := hp s hs hr
    simp only [K.step, Option.some.injEq] at h
    simp only [Ready] at hr
    rcases hf : f s with ⟨r, t⟩
    rw [hf] at h h1 h2 h3 h4 hr
    cases r with
    | ok b => simp only [Prod.mk.injEq] at h; obtain ⟨rfl, rfl⟩ := h; exact ⟨g', h1, h2 b rfl⟩
    | exc e => simp only [Prod.mk.injEq] at h; obtain ⟨rfl, rfl⟩ := h; exact ⟨g', h1, h3 e rfl⟩
    | ub w => simp only [Prod.mk.injEq] at h; obtain ⟨rfl, rfl⟩ := h; exact ⟨g', h1, h4 w rfl⟩
    | hang => exact absurd rfl hr

end

end Xeus.Link
