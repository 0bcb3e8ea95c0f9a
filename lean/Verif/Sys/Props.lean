import Verif.Sys.Lemmas
import Verif.Setup.Lemmas

/-!
# Property C69: temporary files and directories

Only the property theorems and the `example`s that instantiate their hypotheses.
-/

namespace Xeus

open Sys Sys.Spec

/-! ## The temporary directory -/

/-- C69: the temporary directory is the value of the first variable that is set, without one separator at its end; it is
undefined behaviour if that value is empty. -/
theorem C69_temp (getenv : Str → Option Str) (v : Str) (h : FirstSet getenv v) :
    (∀ d, v = d ++ [47] → tempDirectory getenv = .ok d) ∧
    (v ≠ [] → v.getLast? ≠ some 47 → tempDirectory getenv = .ok v) ∧
    (v = [] → ∃ why, tempDirectory getenv = .ub why) := by
  have e : tempDirectory getenv = removeEndingSeparator v := by
    obtain ⟨before, name, after, h1, h2, h3⟩ := h
    unfold variables at h1
    unfold tempDirectory
    rcases before with _ | ⟨x1, _ | ⟨x2, _ | ⟨x3, _ | ⟨x4, _ | ⟨x5, before⟩⟩⟩⟩⟩ <;> simp at h1
    · obtain ⟨rfl, _⟩ := h1
      simp [h3]
    · obtain ⟨rfl, rfl, _⟩ := h1
      simp [h3, h2]
    · obtain ⟨rfl, rfl, rfl, _⟩ := h1
      simp [h3, h2]
    · obtain ⟨rfl, rfl, rfl, rfl, _⟩ := h1
      simp [h3, h2]
  rw [e]
  refine ⟨fun d hd => ?_, fun hne hl => ?_, fun hz => ?_⟩
  · subst hd
    simp [removeEndingSeparator]
  · unfold removeEndingSeparator
    cases hg : v.getLast? with
    | none => simp at hg; exact absurd hg hne
    | some c =>
      have : c ≠ 47 := fun e => hl (by rw [hg, e])
      simp [this]
  · subst hz
    exact ⟨_, rfl⟩

/-- C69: without any of the variables it is `/tmp`. -/
theorem C69_temp_default (getenv : Str → Option Str) (h : ∀ x ∈ variables, getenv x = none) :
    tempDirectory getenv = .ok (lit "/tmp") := by
  simp only [variables, List.mem_cons, List.not_mem_nil, or_false, forall_eq_or_imp, forall_eq] at h
  simp [tempDirectory, h]

example : tempDirectory (fun x => if x = lit "TMP" then some (lit "/var/tmp/") else if x = lit "TEMP" then some [] else none) =
    .ok (lit "/var/tmp") :=
  (C69_temp _ (lit "/var/tmp/") ⟨[lit "TMPDIR"], lit "TMP", [lit "TEMPDIR", lit "TEMP"], rfl, by decide, by decide⟩).1 _ (by decide)

/-- C69: the first variable that is set counts even if it is empty. -/
theorem C69_temp_witness : ∃ getenv : Str → Option Str, getenv (lit "TMPDIR") = some [] ∧ getenv (lit "TMP") = some (lit "/tmp") ∧
    ∃ why, tempDirectory getenv = .ub why :=
  ⟨fun x => if x = lit "TMPDIR" then some [] else some (lit "/tmp"), by decide, by decide,
    (C69_temp _ [] ⟨[], lit "TMPDIR", _, rfl, by decide, by decide⟩).2.2 rfl⟩

/-! ## Directories -/

/-- C69: making a directory makes exactly the missing directories of its path, if the process may write to the part that
exists, and otherwise changes nothing; success is reported if the directory is then there, and also if there is a file
in its place. -/
theorem C69_create (fs : Fs) (wf : Wf fs) (path : Str) (b : Bool) (c : List Str) (hp : PathOf path b c) :
    Made fs b c (path.getLast? = some 47) (createDirectory fs path) := by
  have := createDir_made wf path.length path (pathOf_ne hp) (Nat.le_refl _)
  rw [pathOf_locate hp] at this
  exact this

/-- C69: every path but the empty one consists of components. -/
theorem C69_paths (path : Str) (h : path ≠ []) : ∃ b c, PathOf path b c := by
  have key : ∀ p : Str, (p ≠ [] → ∃ b c, PathOf p b c) := by
    intro p
    generalize hn : p.length = n
    induction n using Nat.strongRecOn generalizing p with
    | _ n ih =>
      intro hne
      cases hr : rsplit p with
      | none => exact ⟨_, _, .name p hne (rsplit_none hr)⟩
      | some ab =>
        obtain ⟨q, last⟩ := ab
        obtain ⟨rfl, hlast⟩ := rsplit_some hr
        have hsep : ∃ b c, PathOf (q ++ [47]) b c := by
          cases q with
          | nil => exact ⟨_, _, .root⟩
          | cons a q =>
            obtain ⟨b, c, h⟩ := ih (a :: q).length (by rw [← hn]; simp) (a :: q) rfl (by simp)
            exact ⟨b, c, .sep _ _ _ h⟩
        obtain ⟨b, c, h⟩ := hsep
        by_cases hz : last = []
        · subst hz
          exact ⟨b, c, h⟩
        · exact ⟨b, c ++ [last], by
            have := PathOf.more q b c last h hz hlast
            simpa using this⟩
  exact key path h

/-- A file system with the directories `/` and `/tmp` and a file `/tmp/f`. -/
def someFs : Fs where
  kind l := if l.comps = [] ∨ l = ⟨true, [lit "tmp"]⟩ then some .dir else if l = ⟨true, [lit "tmp", lit "f"]⟩ then some .file else none
  writable _ := true

theorem someFs_wf : Wf someFs := by
  constructor
  · intro b; simp [someFs]
  · intro b c x h
    simp only [someFs] at h ⊢
    by_cases h1 : (⟨b, c ++ [x]⟩ : Loc) = ⟨true, [lit "tmp"]⟩
    · have : c = [] := by
        have := congrArg Loc.comps h1
        cases c with
        | nil => rfl
        | cons a c => simp at this
      simp [this]
    · by_cases h2 : (⟨b, c ++ [x]⟩ : Loc) = ⟨true, [lit "tmp", lit "f"]⟩
      · have e := congrArg Loc.comps h2
        have e' : b = true := congrArg Loc.abs h2
        have : c = [lit "tmp"] := by
          have : c ++ [x] = [lit "tmp"] ++ [lit "f"] := e
          exact (List.append_inj' this rfl).1
        simp [this, e']
      · simp [h1, h2] at h

example : Made someFs true [lit "tmp", lit "k_1", lit "x"] false (createDirectory someFs (lit "/tmp/k_1/x")) :=
  C69_create someFs someFs_wf (lit "/tmp/k_1/x") true _
    (.more (lit "/tmp/k_1") true _ (lit "x")
      (.sep _ _ _ (.more (lit "/tmp") true _ (lit "k_1") (.sep _ _ _ (.more [] true [] (lit "tmp") .root (by decide) (by decide)))
        (by decide) (by decide))) (by decide) (by decide))

/-- C69: a file in place of the directory is reported as success. -/
theorem C69_file_witness : ∃ fs path, Wf fs ∧ fs.kind (locate path) = some .file ∧ createDirectory fs path = (true, fs) := by
  refine ⟨someFs, lit "/tmp/f", someFs_wf, by decide, ?_⟩
  exact (C69_create someFs someFs_wf (lit "/tmp/f") true [lit "tmp", lit "f"]
    (.more (lit "/tmp") true _ (lit "f") (.sep _ _ _ (.more [] true [] (lit "tmp") .root (by decide) (by decide)))
      (by decide) (by decide))).file (by decide)

/-! ## Names -/

/-- C69: two cells have the same file exactly if they have the same hash. -/
theorem C69_cell (hash : Str → Nat) (pref suffix code code' : Str) :
    cellTmpFile hash pref code suffix = cellTmpFile hash pref code' suffix ↔ hash code = hash code' := by
  constructor
  · intro h
    exact natDigits_inj (List.append_cancel_left (List.append_cancel_right h))
  · intro h
    simp only [cellTmpFile, h]

/-- C69: the file of a numbered cell lies in the given directory and is called as the number in brackets with the extension. -/
theorem C69_cell_number_name (pref ext : Str) (n : Int) (he : 47 ∉ ext) :
    ∃ name digits, cellTmpFileOld pref n ext = pref ++ 47 :: name ∧ 47 ∉ name ∧ name = 91 :: (digits ++ 93 :: ext) ∧
      Setup.Spec.Decimal n digits := by
  have hd : 47 ∉ intToString n := fun h => by
    rcases Setup.intToString_chars n _ h with h | h <;> revert h <;> decide
  refine ⟨91 :: (intToString n ++ 93 :: ext), intToString n, ?_, ?_, rfl, (Setup.decimal_iff n _).2 rfl⟩
  · have h1 : lit "/[" = [47, 91] := by decide +kernel
    have h2 : lit "]" = [93] := by decide +kernel
    simp [cellTmpFileOld, h1, h2]
  · simp only [List.mem_cons, List.mem_append, not_or]
    exact ⟨by decide, hd, by decide, he⟩

example : (47 : UInt8) ∉ lit ".py" ∧ cellTmpFileOld (lit "/tmp/xpython_41") (-3) (lit ".py") = lit "/tmp/xpython_41/[-3].py" := by
  decide +kernel

/-- C69: the file of a numbered cell determines its number. -/
theorem C69_cell_number (pref ext : Str) (n m : Int) (h : cellTmpFileOld pref n ext = cellTmpFileOld pref m ext) : n = m := by
  have h := List.append_cancel_left (List.append_cancel_left
    (as := pref) (by simpa only [cellTmpFileOld, List.append_assoc] using h))
  have h : intToString n = intToString m := by
    have := List.append_cancel_right h
    exact this
  have hn := (Setup.decimal_iff n _).2 rfl
  have hm := (Setup.decimal_iff m _).2 rfl
  rw [h] at hn
  obtain ⟨d, _, h1, _, h2⟩ := hn
  obtain ⟨d', _, h1', _, h2'⟩ := hm
  rcases h2 with ⟨a, e, v⟩ | ⟨a, e, v⟩ <;> rcases h2' with ⟨a', e', v'⟩ | ⟨a', e', v'⟩
  · rw [← v, ← v', ← e, ← e']
  · rw [e] at e'
    have := h1 45 (by rw [e']; simp)
    exact absurd this (by decide)
  · rw [e'] at e
    have := h1' 45 (by rw [e]; simp)
    exact absurd this (by decide)
  · rw [e] at e'
    rw [← v, ← v', (List.cons.inj e').2]

/-- C69: different kernel processes have different directories: the prefix determines the name and the number of the
process. -/
theorem C69_prefix (dir name name' : Str) (pid pid' : Nat) (h : tmpPrefix dir name pid = tmpPrefix dir name' pid') :
    name = name' ∧ pid = pid' := by
  have h : name ++ 95 :: natDigits pid = name' ++ 95 :: natDigits pid' := by
    simp only [tmpPrefix, List.append_assoc] at h
    have h := List.append_cancel_left (List.append_cancel_left h)
    have e : ∀ (n : Str) p, n ++ ([95] ++ (natDigits p ++ [47])) = (n ++ 95 :: natDigits p) ++ [47] := by simp
    rw [e, e] at h
    exact List.append_cancel_right h
  have hd : ∀ n, (95 : UInt8) ∉ natDigits n := by
    intro n hm
    have := (natDigits_spec n).2.1 _ hm
    revert this
    decide
  have := congrArg (Setup.afterLast 95) h
  rw [Setup.afterLast_append _ _ _ (hd _), Setup.afterLast_append _ _ _ (hd _)] at this
  rw [this] at h
  exact ⟨List.append_cancel_right h, natDigits_inj this⟩

example : tmpPrefix (lit "/tmp") (lit "xpython") 41 = lit "/tmp/xpython_41/" := by decide +kernel

end Xeus
