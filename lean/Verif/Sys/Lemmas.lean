import Verif.Sys.Spec
import Verif.Digits

/-!
# Temporary files: lemmas
-/

namespace Xeus.Sys

open Xeus Xeus.Sys.Spec

theorem rev_induct {α : Type} {motive : List α → Prop} (nil : motive [])
    (append_singleton : ∀ l x, motive l → motive (l ++ [x])) : ∀ l, motive l := by
  have : ∀ l : List α, motive l.reverse := by
    intro l
    induction l with
    | nil => exact nil
    | cons x l ih => rw [List.reverse_cons]; exact append_singleton _ _ ih
  intro l
  have := this l.reverse
  rwa [List.reverse_reverse] at this

/-! ## Paths -/

theorem compsFrom_name (cur x : Str) (h : 47 ∉ x) (hne : cur ++ x ≠ []) : compsFrom cur x = [cur ++ x] := by
  induction x generalizing cur with
  | nil => simp at hne; simp [compsFrom, hne]
  | cons c x ih =>
    simp only [List.mem_cons, not_or] at h
    rw [compsFrom, if_neg (Ne.symm h.1), ih _ h.2 (by simp)]
    simp

theorem compsFrom_sep (p t : Str) : ∀ cur, compsFrom cur (p ++ 47 :: t) = compsFrom cur p ++ compsFrom [] t := by
  induction p with
  | nil =>
    intro cur
    simp only [List.nil_append, compsFrom, if_true]
    split <;> simp
  | cons c p ih =>
    intro cur
    simp only [List.cons_append, compsFrom]
    split
    · split <;> simp [ih]
    · exact ih _

theorem compsFrom_nil : compsFrom [] [] = [] := by simp [compsFrom]

theorem pathOf_ne {p : Str} {b : Bool} {c : List Str} (h : PathOf p b c) : p ≠ [] := by
  cases h <;> simp_all

theorem pathOf_locate {p : Str} {b : Bool} {c : List Str} (h : PathOf p b c) : locate p = ⟨b, c⟩ := by
  induction h with
  | name x hne hx =>
    unfold locate
    rw [compsFrom_name [] x hx (by simpa using hne)]
    cases x with
    | nil => exact absurd rfl hne
    | cons a x =>
      have : a ≠ 47 := fun e => hx (by simp [e])
      simp [this]
  | root => decide
  | sep p b c hp ih =>
    unfold locate at ih ⊢
    rw [compsFrom_sep, compsFrom_nil, List.append_nil]
    have hne := pathOf_ne hp
    cases p with
    | nil => exact absurd rfl hne
    | cons a p => simpa using ih
  | more p b c x hp hne hx ih =>
    unfold locate at ih ⊢
    rw [compsFrom_sep, compsFrom_nil, List.append_nil] at ih
    rw [List.append_assoc, List.singleton_append, compsFrom_sep, compsFrom_name [] x hx (by simpa using hne)]
    cases p with
    | nil => simp at ih ⊢; simp [ih.1, ← ih.2]
    | cons a p => simp at ih ⊢; simp [ih.1, ← ih.2]

theorem rsplit_none {p : Str} (h : rsplit p = none) : 47 ∉ p := by
  induction p with
  | nil => simp
  | cons c s ih =>
    simp only [rsplit] at h
    split at h
    · cases h
    · rename_i hs
      split at h
      · cases h
      · rename_i hc
        simp [ih hs, Ne.symm hc]

theorem rsplit_some {p a b : Str} (h : rsplit p = some (a, b)) : p = a ++ 47 :: b ∧ 47 ∉ b := by
  induction p generalizing a b with
  | nil => simp [rsplit] at h
  | cons c s ih =>
    simp only [rsplit] at h
    split at h
    · rename_i a' b' hs
      cases h
      have := ih hs
      exact ⟨by rw [this.1]; rfl, this.2⟩
    · rename_i hs
      split at h
      · rename_i hc
        cases h
        exact ⟨by rw [hc]; rfl, rsplit_none hs⟩
      · cases h

/-! ## Existing places -/

theorem exists_prefix {fs : Fs} (wf : Wf fs) (b : Bool) (p t : List Str) : fs.kind ⟨b, p ++ t⟩ ≠ none → fs.kind ⟨b, p⟩ ≠ none := by
  induction t using rev_induct with
  | nil => simp
  | append_singleton t x ih =>
    intro h
    rw [← List.append_assoc] at h
    apply ih
    rw [wf.parent b _ x h]
    simp

theorem dir_prefix {fs : Fs} (wf : Wf fs) (b : Bool) (p t : List Str) (ht : t ≠ []) (h : fs.kind ⟨b, p ++ t⟩ ≠ none) :
    fs.kind ⟨b, p⟩ = some .dir := by
  cases t with
  | nil => exact absurd rfl ht
  | cons x t =>
    have : p ++ x :: t = (p ++ [x]) ++ t := by simp
    rw [this] at h
    exact wf.parent b p x (exists_prefix wf b _ t h)

/-- The existing part of a path is unique. -/
theorem base_unique {fs : Fs} (wf : Wf fs) {b : Bool} {base base' rest rest' : List Str} {x x' : Str}
    (he : base ++ x :: rest = base' ++ x' :: rest') (h1 : fs.kind ⟨b, base⟩ ≠ none) (h2 : fs.kind ⟨b, base ++ [x]⟩ = none)
    (h1' : fs.kind ⟨b, base'⟩ ≠ none) (h2' : fs.kind ⟨b, base' ++ [x']⟩ = none) : base = base' ∧ x = x' ∧ rest = rest' := by
  have key : ∀ {base base' rest rest' : List Str} {x x' : Str}, base ++ x :: rest = base' ++ x' :: rest' →
      fs.kind ⟨b, base ++ [x]⟩ = none → fs.kind ⟨b, base'⟩ ≠ none → ¬ base.length < base'.length := by
    intro base base' rest rest' x x' he h2 h1' hlt
    have hp : base ++ [x] <+: base' := by
      refine List.prefix_of_prefix_length_le (l₃ := base' ++ x' :: rest') ?_ (List.prefix_append _ _) (by simp; omega)
      rw [← he]
      exact ⟨rest, by simp⟩
    obtain ⟨t, rfl⟩ := hp
    exact exists_prefix wf b _ t h1' h2
  have hl : base.length = base'.length := by
    have a := key he h2 h1'
    have c := key he.symm h2' h1
    omega
  have := List.append_inj he hl
  exact ⟨this.1, (List.cons.inj this.2).1, (List.cons.inj this.2).2⟩

/-- A missing place is below an existing one. -/
theorem base_exists {fs : Fs} (wf : Wf fs) (b : Bool) (c : List Str) (h : fs.kind ⟨b, c⟩ = none) :
    ∃ base x rest, c = base ++ x :: rest ∧ fs.kind ⟨b, base⟩ ≠ none ∧ fs.kind ⟨b, base ++ [x]⟩ = none := by
  induction c using rev_induct with
  | nil => rw [wf.top] at h; cases h
  | append_singleton c x ih =>
    cases hc : fs.kind ⟨b, c⟩ with
    | none =>
      obtain ⟨base, y, rest, e, h1, h2⟩ := ih hc
      exact ⟨base, y, rest ++ [x], by rw [e]; simp, h1, h2⟩
    | some k => exact ⟨c, x, [], rfl, by simp [hc], h⟩

/-! ## Making directories -/

theorem prefix_nil_iff {t : List Str} : t <+: ([] : List Str) ↔ t = [] := List.prefix_nil

theorem prefix_snoc {t rest : List Str} {x : Str} (h : t <+: rest ++ [x]) : t <+: rest ∨ t = rest ++ [x] := by
  rcases List.prefix_concat_iff.1 h with h | h
  · exact .inr (by simpa using h)
  · exact .inl h

/-- Making a directory whose parent is there. -/
theorem ensure_in_dir {fs : Fs} (wf : Wf fs) {b : Bool} {c : List Str} {x : Str} {p : Str} (hp : p ≠ [])
    (hl : locate p = ⟨b, c ++ [x]⟩) (hs : p.getLast? ≠ some 47) (hk : fs.kind ⟨b, c⟩ ≠ none) :
    Made fs b (c ++ [x]) false (ensure fs p) := by
  have hst : statOk fs p = (fs.kind ⟨b, c ++ [x]⟩).isSome := by
    unfold statOk
    rw [hl]
    cases h : fs.kind ⟨b, c ++ [x]⟩ with
    | none => simp
    | some k => cases k <;> simp [hp, hs]
  refine ⟨fun h => ?_, fun h => ?_, fun base y rest he h1 h2 => ?_⟩
  · simp [ensure, hst, h]
  · simp [ensure, hst, h]
  · have hmiss : fs.kind ⟨b, c ++ [x]⟩ = none := by
      rcases hc : fs.kind ⟨b, c ++ [x]⟩ with _ | k
      · rfl
      · exfalso
        refine exists_prefix wf b (base ++ [y]) rest ?_ h2
        have : base ++ [y] ++ rest = c ++ [x] := by rw [he]; simp
        rw [this, hc]; simp
    obtain ⟨rfl, rfl, rfl⟩ := base_unique wf (he : c ++ x :: [] = base ++ y :: rest) hk hmiss h1 h2
    have hm : ensure fs p = mkdir fs p := by simp [ensure, hst, hmiss]
    rw [hm]
    simp only [mkdir, hl, List.dropLast_concat]
    constructor
    · intro hw
      rw [if_pos ⟨hp, hmiss, hw⟩]
      refine ⟨rfl, fun t ht => ?_, fun l hne => ?_⟩
      · rw [prefix_nil_iff.1 ht]; simp
      · have := hne [] (List.nil_prefix)
        simp [this]
    · intro hw
      rw [if_neg (fun h => hw h.2.2)]

/-- Making a directory below a missing one, after the missing one was to be made. -/
theorem ensure_below {fs : Fs} (wf : Wf fs) {b : Bool} {c : List Str} {x : Str} {p : Str} {slash : Bool} {r : Bool × Fs} (hp : p ≠ [])
    (hl : locate p = ⟨b, c ++ [x]⟩) (hs : p.getLast? ≠ some 47) (hr : Made fs b c slash r) :
    Made fs b (c ++ [x]) false (ensure r.2 p) := by
  cases hk : fs.kind ⟨b, c⟩ with
  | some k =>
    have : r.2 = fs := by
      cases k with
      | dir => rw [hr.dir hk]
      | file => rw [hr.file hk]
    rw [this]
    exact ensure_in_dir wf hp hl hs (by simp [hk])
  | none =>
    have hnone : fs.kind ⟨b, c ++ [x]⟩ = none := by
      rcases hc : fs.kind ⟨b, c ++ [x]⟩ with _ | k
      · rfl
      · exact absurd hk (exists_prefix wf b c [x] (by simp [hc]))
    refine ⟨fun h => (by rw [hnone] at h; cases h), fun h => (by rw [hnone] at h; cases h), fun base y rest he h1 h2 => ?_⟩
    obtain ⟨base', y', rest', he', h1', h2'⟩ := base_exists wf b c hk
    have hcx : c ++ [x] = base' ++ y' :: (rest' ++ [x]) := by rw [he']; simp
    obtain ⟨rfl, rfl, rfl⟩ := base_unique wf (hcx.symm.trans he) h1' h2' h1 h2
    obtain ⟨m1, m2⟩ := hr.missing base' y' rest' he' h1' h2'
    constructor
    · intro hw
      obtain ⟨_, a2, a3⟩ := m1 hw
      have hpar := a2 rest' List.prefix_rfl
      rw [← he'] at hpar
      have hout : ∀ t, t <+: rest' → (⟨b, c ++ [x]⟩ : Loc) ≠ ⟨b, base' ++ y' :: t⟩ := by
        intro t ht e
        rw [hcx] at e
        have e := congrArg (List.length ∘ Loc.comps) e
        have := ht.length_le
        simp at e
        omega
      have hk2 : r.2.kind ⟨b, c ++ [x]⟩ = none := by rw [(a3 _ hout).1, hnone]
      have hst : statOk r.2 p = false := by simp [statOk, hl, hk2]
      have hm : ensure r.2 p = mkdir r.2 p := by simp [ensure, hst]
      rw [hm]
      simp only [mkdir, hl, List.dropLast_concat]
      rw [if_pos ⟨hp, hk2, hpar.1, hpar.2⟩]
      refine ⟨rfl, fun t ht => ?_, fun l hne => ?_⟩
      · rcases prefix_snoc ht with ht | rfl
        · have := a2 t ht
          simp only [this]
          simp
        · rw [← hcx]; simp
      · have h0 := hne (rest' ++ [x]) List.prefix_rfl
        rw [← hcx] at h0
        have := a3 l (fun t ht => hne t (ht.trans (List.prefix_append _ _)))
        simp [h0, this]
    · intro hw
      rw [m2 hw]
      have hst : statOk fs p = false := by simp [statOk, hl, hnone]
      have hm : ensure fs p = mkdir fs p := by simp [ensure, hst]
      rw [hm]
      simp only [mkdir, hl, List.dropLast_concat, hk]
      rw [if_neg (by simp)]

/-- The same directory with a separator at the end. -/
theorem ensure_slash {fs : Fs} (wf : Wf fs) {b : Bool} {c : List Str} {p : Str} {slash : Bool} {r : Bool × Fs} (hp : p ≠ [])
    (hl : locate p = ⟨b, c⟩) (hs : p.getLast? = some 47) (hr : Made fs b c slash r) :
    Made fs b c true (ensure r.2 p) := by
  cases hk : fs.kind ⟨b, c⟩ with
  | some k =>
    refine ⟨fun h => ?_, fun h => ?_, fun base y rest he h1 h2 => ?_⟩
    · rw [hr.dir h]
      simp [ensure, statOk, hp, hl, h]
    · rw [hr.file h]
      simp [ensure, statOk, hp, hl, h, hs, mkdir]
    · exfalso
      refine exists_prefix wf b (base ++ [y]) rest ?_ h2
      have : base ++ [y] ++ rest = c := by rw [he]; simp
      rw [this, hk]; simp
  | none =>
    refine ⟨fun h => (by rw [hk] at h; cases h), fun h => (by rw [hk] at h; cases h), fun base y rest he h1 h2 => ?_⟩
    obtain ⟨m1, m2⟩ := hr.missing base y rest he h1 h2
    constructor
    · intro hw
      obtain ⟨_, a2, a3⟩ := m1 hw
      have hpar := a2 rest List.prefix_rfl
      rw [← he] at hpar
      have : ensure r.2 p = (true, r.2) := by simp [ensure, statOk, hp, hl, hpar.1]
      rw [this]
      exact ⟨rfl, a2, a3⟩
    · intro hw
      rw [m2 hw]
      have hst : statOk fs p = false := by simp [statOk, hl, hk]
      have hm : ensure fs p = mkdir fs p := by simp [ensure, hst]
      rw [hm]
      simp only [mkdir, hl]
      rw [if_neg]
      rintro ⟨_, _, h3, h4⟩
      by_cases hrest : rest = []
      · subst hrest
        rw [he, List.dropLast_concat] at h3 h4
        exact hw ⟨h3, h4⟩
      · have e : c.dropLast = (base ++ [y]) ++ rest.dropLast := by
          rw [he, List.dropLast_append_of_ne_nil (by simp)]
          cases rest with
          | nil => exact absurd rfl hrest
          | cons z rest => simp
        rw [e] at h3
        exact exists_prefix wf b (base ++ [y]) rest.dropLast (by rw [h3]; simp) h2

theorem getLast?_sep (q : Str) {last : Str} (hne : last ≠ []) (hl : 47 ∉ last) : (q ++ 47 :: last).getLast? ≠ some 47 := by
  have e : q ++ 47 :: last = (q ++ [47]) ++ last := by simp
  rw [e, List.getLast?_append]
  cases h : last.getLast? with
  | none => simp at h; exact absurd h hne
  | some a =>
    simp only [Option.some_or, ne_eq, Option.some.injEq]
    rintro rfl
    exact hl (List.mem_of_getLast? h)

theorem getLast?_slash (q : Str) : (q ++ [47]).getLast? = some 47 := by simp

theorem locate_cons (a : UInt8) (q last : Str) : locate (a :: q ++ 47 :: last) =
    ⟨(locate (a :: q)).abs, (locate (a :: q)).comps ++ compsFrom [] last⟩ := by
  unfold locate
  rw [compsFrom_sep]
  simp

theorem createDir_made {fs : Fs} (wf : Wf fs) : ∀ fuel p, p ≠ [] → p.length ≤ fuel →
    Made fs (locate p).abs (locate p).comps (p.getLast? = some 47) (createDir fuel fs p)
  | 0, p, hne, hf => by
    cases p with
    | nil => exact absurd rfl hne
    | cons _ _ => simp at hf
  | fuel + 1, p, hne, hf => by
    cases hr : rsplit p with
    | none =>
      have hp := rsplit_none hr
      have hl := pathOf_locate (PathOf.name p hne hp)
      have hs : p.getLast? ≠ some 47 := fun h => hp (List.mem_of_getLast? h)
      have := ensure_in_dir wf (c := []) (x := p) (b := false) hne hl hs (by rw [wf.top]; simp)
      rw [hl]
      simpa [createDir, hr, hs] using this
    | some ab =>
      obtain ⟨q, last⟩ := ab
      obtain ⟨hp, hlast⟩ := rsplit_some hr
      cases q with
      | nil =>
        have e : createDir (fuel + 1) fs p = ensure fs p := by simp [createDir, hr]
        rw [e]
        rw [List.nil_append] at hp
        by_cases hz : last = []
        · subst hz hp
          have hl : locate [47] = ⟨true, []⟩ := by decide
          rw [hl]
          have hd := wf.top true
          refine ⟨fun _ => ?_, fun h => (by rw [hd] at h; cases h), fun base x rest he => (by cases base <;> cases he)⟩
          simp [ensure, statOk, hl, hd]
        · have hl : locate p = ⟨true, [] ++ [last]⟩ := by
            have := pathOf_locate (PathOf.more [] true [] last PathOf.root hz hlast)
            rw [hp]
            exact this
          have hs : p.getLast? ≠ some 47 := by rw [hp]; exact getLast?_sep [] hz hlast
          have := ensure_in_dir wf hne hl hs (by rw [wf.top]; simp)
          rw [hl]
          simpa [hs] using this
      | cons a q =>
        have e : createDir (fuel + 1) fs p = ensure (createDir fuel fs (a :: q)).2 p := by simp [createDir, hr]
        rw [e]
        have ih := createDir_made wf fuel (a :: q) (by simp) (by rw [hp] at hf; simp at hf ⊢; omega)
        have hl := locate_cons a q last
        rw [← hp] at hl
        by_cases hz : last = []
        · subst hz
          rw [compsFrom_nil, List.append_nil] at hl
          have hs : p.getLast? = some 47 := by rw [hp]; exact getLast?_slash _
          have := ensure_slash wf hne hl hs ih
          rw [hl]
          simpa [hs] using this
        · rw [compsFrom_name [] last hlast (by simpa using hz), List.nil_append] at hl
          have hs : p.getLast? ≠ some 47 := by rw [hp]; exact getLast?_sep _ hz hlast
          have := ensure_below wf hne hl hs ih
          rw [hl]
          simpa [hs] using this

end Xeus.Sys
