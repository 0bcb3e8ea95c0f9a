import Verif.Link.Wp

/-!
# Programs run interleaved that do not fail: a program logic

No property statements here.
-/

namespace Xeus.Link

open Xeus K

section
variable {S G α β : Type} {ok : G → S → Prop} {mv : G → S → S → G → Prop} {blk : G → S → Prop}

/-- Every access, made in a state about which `g` is known, either blocks in a state described by `blk` or succeeds and moves along
`mv`; the program does not fail and its result satisfies `Q`. -/
def Safe (ok : G → S → Prop) (mv : G → S → S → G → Prop) (blk : G → S → Prop) (Q : G → α → Prop) : K S α → G → Prop
  | .done r, g => ∃ a, r = .ok a ∧ Q g a
  | .act f k, g => ∀ s, ok g s → ((f s).1 = .hang ∧ blk g s) ∨
      ∃ b g', (f s).1 = .ok b ∧ mv g s (f s).2 g' ∧ Safe ok mv blk Q (k (.ok b)) g'

theorem Safe.mono {Q Q' : G → α → Prop} (h : ∀ g a, Q g a → Q' g a) {p : K S α} {g : G} (hp : Safe ok mv blk Q p g) :
    Safe ok mv blk Q' p g := by
  induction p generalizing g with
  | done r => obtain ⟨a, h1, h2⟩ := hp; exact ⟨a, h1, h g a h2⟩
  | act f k ih =>
    intro s hs
    rcases hp s hs with h1 | ⟨b, g', h1, h2, h3⟩
    · exact .inl h1
    · exact .inr ⟨b, g', h1, h2, ih _ h3⟩

theorem Safe.bind {Q : G → β → Prop} {p : K S α} {q : α → K S β} {g : G}
    (hp : Safe ok mv blk (fun g a => Safe ok mv blk Q (q a) g) p g) : Safe ok mv blk Q (p >>= q) g := by
  show Safe ok mv blk Q (p.bind q) g
  induction p generalizing g with
  | done r => obtain ⟨a, rfl, h2⟩ := hp; exact h2
  | act f k ih =>
    intro s hs
    rcases hp s hs with h1 | ⟨b, g', h1, h2, h3⟩
    · exact .inl h1
    · exact .inr ⟨b, g', h1, h2, ih _ h3⟩

theorem Safe.attempt {Q : G → Except Exc α → Prop} {p : K S α} {g : G}
    (hp : Safe ok mv blk (fun g a => Q g (.ok a)) p g) : Safe ok mv blk Q p.attempt g := by
  induction p generalizing g with
  | done r => obtain ⟨a, rfl, h2⟩ := hp; exact ⟨_, rfl, h2⟩
  | act f k ih =>
    intro s hs
    rcases hp s hs with h1 | ⟨b, g', h1, h2, h3⟩
    · exact .inl h1
    · exact .inr ⟨b, g', h1, h2, ih _ h3⟩

theorem Safe.pure {Q : G → α → Prop} {a : α} {g : G} (h : Q g a) : Safe ok mv blk Q (Pure.pure a : K S α) g := ⟨a, rfl, h⟩
theorem Safe.ofRes {Q : G → α → Prop} {r : Res α} {a : α} {g : G} (hr : r = .ok a) (h : Q g a) :
    Safe ok mv blk Q (K.ofRes r : K S α) g := ⟨a, hr, h⟩

theorem Safe.lift {Q : G → α → Prop} {f : S → Res α × S} {g : G}
    (h : ∀ s, ok g s → ((f s).1 = .hang ∧ blk g s) ∨ ∃ b g', (f s).1 = .ok b ∧ mv g s (f s).2 g' ∧ Q g' b) :
    Safe ok mv blk Q (K.lift f) g := by
  intro s hs
  rcases h s hs with h1 | ⟨b, g', h1, h2, h3⟩
  · exact .inl h1
  · exact .inr ⟨b, g', h1, h2, b, rfl, h3⟩

theorem Safe.read {Q : G → α → Prop} {f : S → α} {g : G} (hmv : ∀ s, ok g s → mv g s s g) (h : ∀ s, ok g s → Q g (f s)) :
    Safe ok mv blk Q (K.read f) g :=
  Safe.lift fun s hs => .inr ⟨_, g, rfl, hmv s hs, h s hs⟩

theorem Safe.readR {Q : G → α → Prop} {f : S → Res α} {g : G} (hmv : ∀ s, ok g s → mv g s s g)
    (h : ∀ s, ok g s → ∃ a, f s = .ok a ∧ Q g a) : Safe ok mv blk Q (K.readR f) g :=
  Safe.lift fun s hs => by
    obtain ⟨a, h1, h2⟩ := h s hs
    exact .inr ⟨a, g, h1, hmv s hs, h2⟩

theorem Safe.modify {Q : G → Unit → Prop} {f : S → S} {g g' : G} (hmv : ∀ s, ok g s → mv g s (f s) g') (h : Q g' ()) :
    Safe ok mv blk Q (K.modify f) g :=
  Safe.lift fun s hs => .inr ⟨(), g', rfl, hmv s hs, h⟩

/-- One step of a program. -/
theorem Safe.step {Q : G → α → Prop} {p p' : K S α} {g : G} {s s' : S} (hp : Safe ok mv blk Q p g) (hs : ok g s) (hr : Ready p s)
    (h : p.step s = some (p', s')) : ∃ g', mv g s s' g' ∧ Safe ok mv blk Q p' g' := by
  cases p with
  | done r => exact absurd hr id
  | act f k =>
    rcases hp s hs with ⟨h1, _⟩ | ⟨b, g', h1, h2, h3⟩
    · exact absurd h1 hr
    · simp only [K.step, Option.some.injEq] at h
      rcases hf : f s with ⟨r, t⟩
      rw [hf] at h h1 h2
      cases h1
      simp only [Prod.mk.injEq] at h
      obtain ⟨rfl, rfl⟩ := h
      exact ⟨g', h2, h3⟩

/-- A program that cannot go on has ended well or is blocked. -/
theorem Safe.stuck {Q : G → α → Prop} {p : K S α} {g : G} {s : S} (hp : Safe ok mv blk Q p g) (hs : ok g s) (hr : ¬ Ready p s) :
    (∃ a, p = .done (.ok a) ∧ Q g a) ∨ blk g s := by
  cases p with
  | done r => obtain ⟨a, rfl, h⟩ := hp; exact .inl ⟨a, rfl, h⟩
  | act f k =>
    rcases hp s hs with ⟨_, h2⟩ | ⟨b, g', h1, _, _⟩
    · exact .inr h2
    · exact absurd (fun h : (f s).1 = .hang => by rw [h] at h1; cases h1) hr

end

end Xeus.Link
