import Verif.Sys.WindowsSpec
import Verif.Sys.Lemmas

/-!
# Temporary files on Windows: lemmas
-/

namespace Xeus.Sys

open Xeus Xeus.Sys.Spec

theorem mkdir_there {fs : Fs} {p : Str} {l : Loc} (hl : locate p = l) (h : fs.kind l ≠ none) : mkdir fs p = (false, fs) := by
  simp only [mkdir, hl]
  rw [if_neg (fun hh => h hh.2.1)]

/-- Making a directory whose parent is there. -/
theorem mkdir_in_dir {fs : Fs} (wf : Wf fs) {b : Bool} {c : List Str} {x : Str} {p : Str} (hp : p ≠ [])
    (hl : locate p = ⟨b, c ++ [x]⟩) (hk : fs.kind ⟨b, c⟩ ≠ none) : MadeWin fs b (c ++ [x]) false (mkdir fs p) := by
  refine ⟨fun h => mkdir_there hl h, fun base y rest he h1 h2 => ?_⟩
  have hmiss : fs.kind ⟨b, c ++ [x]⟩ = none := by
    rcases hc : fs.kind ⟨b, c ++ [x]⟩ with _ | k
    · rfl
    · exfalso
      refine exists_prefix wf b (base ++ [y]) rest ?_ h2
      have : base ++ [y] ++ rest = c ++ [x] := by rw [he]; simp
      rw [this, hc]; simp
  obtain ⟨rfl, rfl, rfl⟩ := base_unique wf (he : c ++ x :: [] = base ++ y :: rest) hk hmiss h1 h2
  simp only [mkdir, hl, List.dropLast_concat]
  constructor
  · intro hw
    rw [if_pos ⟨hp, hmiss, hw⟩]
    refine ⟨rfl, fun t ht => ?_, fun l hne => ?_⟩
    · rw [prefix_nil_iff.1 ht]; simp
    · have := hne [] (List.nil_prefix)
      simp [this]
  · intro hw
    rw [if_neg (fun h => hw h.2.2)]

/-- Making a directory below a missing one, after the missing one was to be made. -/
theorem mkdir_below {fs : Fs} (wf : Wf fs) {b : Bool} {c : List Str} {x : Str} {p : Str} {slash : Bool} {r : Bool × Fs} (hp : p ≠ [])
    (hl : locate p = ⟨b, c ++ [x]⟩) (hr : MadeWin fs b c slash r) : MadeWin fs b (c ++ [x]) false (mkdir r.2 p) := by
  cases hk : fs.kind ⟨b, c⟩ with
  | some k =>
    rw [hr.there (by simp [hk])]
    exact mkdir_in_dir wf hp hl (by simp [hk])
  | none =>
    have hnone : fs.kind ⟨b, c ++ [x]⟩ = none := by
      rcases hc : fs.kind ⟨b, c ++ [x]⟩ with _ | k
      · rfl
      · exact absurd hk (exists_prefix wf b c [x] (by simp [hc]))
    refine ⟨fun h => absurd hnone h, fun base y rest he h1 h2 => ?_⟩
    obtain ⟨base', y', rest', he', h1', h2'⟩ := base_exists wf b c hk
    have hcx : c ++ [x] = base' ++ y' :: (rest' ++ [x]) := by rw [he']; simp
    obtain ⟨rfl, rfl, rfl⟩ := base_unique wf (hcx.symm.trans he) h1' h2' h1 h2
    obtain ⟨m1, m2⟩ := hr.missing base' y' rest' he' h1' h2'
    constructor
    · intro hw
      obtain ⟨_, a2, a3⟩ := m1 hw
      have hpar := a2 rest' List.prefix_rfl
      rw [← he'] at hpar
      have hout : ∀ t, t <+: rest' → (⟨b, c ++ [x]⟩ : Loc) ≠ ⟨b, base' ++ y' :: t⟩ := by
        intro t ht e
        rw [hcx] at e
        have e := congrArg (List.length ∘ Loc.comps) e
        have := ht.length_le
        simp at e
        omega
      have hk2 : r.2.kind ⟨b, c ++ [x]⟩ = none := by rw [(a3 _ hout).1, hnone]
      simp only [mkdir, hl, List.dropLast_concat]
      rw [if_pos ⟨hp, hk2, hpar.1, hpar.2⟩]
      refine ⟨rfl, fun t ht => ?_, fun l hne => ?_⟩
      · rcases prefix_snoc ht with ht | rfl
        · have := a2 t ht
          simp only [this]
          simp
        · rw [← hcx]; simp
      · have h0 := hne (rest' ++ [x]) List.prefix_rfl
        rw [← hcx] at h0
        have := a3 l (fun t ht => hne t (ht.trans (List.prefix_append _ _)))
        simp [h0, this]
    · intro hw
      rw [m2 hw]
      simp only [mkdir, hl, List.dropLast_concat, hk]
      rw [if_neg (by simp)]

/-- The same directory with a separator at the end. -/
theorem mkdir_slash {fs : Fs} (wf : Wf fs) {b : Bool} {c : List Str} {p : Str} {slash : Bool} {r : Bool × Fs}
    (hl : locate p = ⟨b, c⟩) (hr : MadeWin fs b c slash r) : MadeWin fs b c true (mkdir r.2 p) := by
  refine ⟨fun h => ?_, fun base y rest he h1 h2 => ?_⟩
  · rw [hr.there h]
    exact mkdir_there hl h
  · obtain ⟨m1, m2⟩ := hr.missing base y rest he h1 h2
    constructor
    · intro hw
      obtain ⟨_, a2, a3⟩ := m1 hw
      have hpar := a2 rest List.prefix_rfl
      rw [← he] at hpar
      rw [mkdir_there hl (by rw [hpar.1]; simp)]
      exact ⟨rfl, a2, a3⟩
    · intro hw
      rw [m2 hw]
      simp only [mkdir, hl]
      rw [if_neg]
      rintro ⟨_, _, h3, h4⟩
      by_cases hrest : rest = []
      · subst hrest
        rw [he, List.dropLast_concat] at h3 h4
        exact hw ⟨h3, h4⟩
      · have e : c.dropLast = (base ++ [y]) ++ rest.dropLast := by
          rw [he, List.dropLast_append_of_ne_nil (by simp)]
          cases rest with
          | nil => exact absurd rfl hrest
          | cons z rest => simp
        rw [e] at h3
        exact exists_prefix wf b (base ++ [y]) rest.dropLast (by rw [h3]; simp) h2

theorem createDirWin_made {fs : Fs} (wf : Wf fs) : ∀ fuel p, p ≠ [] → p.length ≤ fuel →
    MadeWin fs (locate p).abs (locate p).comps (p.getLast? = some 47) (createDirWin fuel fs p)
  | 0, p, hne, hf => by
    cases p with
    | nil => exact absurd rfl hne
    | cons _ _ => simp at hf
  | fuel + 1, p, hne, hf => by
    cases hr : rsplit p with
    | none =>
      have hp := rsplit_none hr
      have hl := pathOf_locate (PathOf.name p hne hp)
      have hs : p.getLast? ≠ some 47 := fun h => hp (List.mem_of_getLast? h)
      have := mkdir_in_dir wf (c := []) (x := p) (b := false) hne hl (by rw [wf.top]; simp)
      rw [hl]
      simpa [createDirWin, hr, hs] using this
    | some ab =>
      obtain ⟨q, last⟩ := ab
      obtain ⟨hp, hlast⟩ := rsplit_some hr
      cases q with
      | nil =>
        have e : createDirWin (fuel + 1) fs p = mkdir fs p := by simp [createDirWin, hr]
        rw [e]
        rw [List.nil_append] at hp
        by_cases hz : last = []
        · subst hz hp
          have hl : locate [47] = ⟨true, []⟩ := by decide
          rw [hl]
          have hd := wf.top true
          exact ⟨fun h => mkdir_there hl h, fun base x rest he => (by cases base <;> cases he)⟩
        · have hl : locate p = ⟨true, [] ++ [last]⟩ := by
            have := pathOf_locate (PathOf.more [] true [] last PathOf.root hz hlast)
            rw [hp]
            exact this
          have hs : p.getLast? ≠ some 47 := by rw [hp]; exact getLast?_sep [] hz hlast
          have := mkdir_in_dir wf hne hl (by rw [wf.top]; simp)
          rw [hl]
          simpa [hs] using this
      | cons a q =>
        have e : createDirWin (fuel + 1) fs p = mkdir (createDirWin fuel fs (a :: q)).2 p := by simp [createDirWin, hr]
        rw [e]
        have ih := createDirWin_made wf fuel (a :: q) (by simp) (by rw [hp] at hf; simp at hf ⊢; omega)
        have hl := locate_cons a q last
        rw [← hp] at hl
        by_cases hz : last = []
        · subst hz
          rw [compsFrom_nil, List.append_nil] at hl
          have hs : p.getLast? = some 47 := by rw [hp]; exact getLast?_slash _
          have := mkdir_slash wf hl ih
          rw [hl]
          simpa [hs] using this
        · rw [compsFrom_name [] last hlast (by simpa using hz), List.nil_append] at hl
          have hs : p.getLast? ≠ some 47 := by rw [hp]; exact getLast?_sep _ hz hlast
          have := mkdir_below wf hne hl ih
          rw [hl]
          simpa [hs] using this

/-! ## Everything stays in a directory -/

theorem mkdir_wf {fs : Fs} (wf : Wf fs) (p : Str) : Wf (mkdir fs p).2 := by
  simp only [mkdir]
  split
  · rename_i h
    obtain ⟨_, h1, h2, _⟩ := h
    refine ⟨fun b => ?_, fun b c x hx => ?_⟩
    · simp only
      split
      · rfl
      · exact wf.top b
    · simp only at hx ⊢
      split
      · rfl
      · split at hx
        · rename_i e
          rw [← e] at h2
          simpa using h2
        · exact wf.parent b c x hx
  · exact wf

theorem ensure_wf {fs : Fs} (wf : Wf fs) (p : Str) : Wf (ensure fs p).2 := by
  unfold ensure
  split
  · exact wf
  · exact mkdir_wf wf p

theorem createDirWin_wf {fs : Fs} (wf : Wf fs) : ∀ fuel p, Wf (createDirWin fuel fs p).2
  | 0, p => mkdir_wf wf p
  | fuel + 1, p => by
    unfold createDirWin
    split
    · exact mkdir_wf (createDirWin_wf wf fuel _) p
    · exact mkdir_wf wf p

theorem createDir_wf {fs : Fs} (wf : Wf fs) : ∀ fuel p, Wf (createDir fuel fs p).2
  | 0, p => ensure_wf wf p
  | fuel + 1, p => by
    unfold createDir
    split
    · exact ensure_wf (createDir_wf wf fuel _) p
    · exact ensure_wf wf p

end Xeus.Sys
