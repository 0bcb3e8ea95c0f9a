import Verif.Sys.WindowsLemmas
import Verif.Sys.Props
import Verif.Tests.Props

/-!
# Property C109: temporary directories decided once, and the branches for Windows

Only the property theorems and the `example`s that instantiate their hypotheses.
-/

namespace Xeus

open Sys Sys.Spec

/-! ## Decided once -/

theorem tempPaths_set (path : Str) (l : List (Res Str)) : tempPaths (.set path) l = List.replicate l.length (.ok path) := by
  induction l with
  | nil => rfl
  | cons _ l ih => simp only [tempPaths, tempPath, ih, List.length_cons, List.replicate_succ]

/-- C109: all calls return what the first one found, whatever happens to the environment in between. -/
theorem C109_once (first : Str) (later : List (Res Str)) :
    tempPaths .fresh (.ok first :: later) = List.replicate (later.length + 1) (.ok first) := by
  simp only [tempPaths, tempPath, tempPaths_set, List.replicate_succ]

/-- C109: a variable that is empty does no harm once the directory was found; an empty one at the first call does. -/
theorem C109_once_env (env : Str → Option Str) (v : Str) (h : FirstSet env v) (later : List (Str → Option Str)) :
    (∀ d, v = d ++ [47] → tempPaths .fresh ((env :: later).map tempDirectory) = List.replicate (later.length + 1) (.ok d)) ∧
    (v ≠ [] → v.getLast? ≠ some 47 →
      tempPaths .fresh ((env :: later).map tempDirectory) = List.replicate (later.length + 1) (.ok v)) ∧
    (v = [] → ∃ why rest, tempPaths .fresh ((env :: later).map tempDirectory) = .ub why :: rest) := by
  obtain ⟨h1, h2, h3⟩ := C69_temp env v h
  refine ⟨fun d hd => ?_, fun a b => ?_, fun hz => ?_⟩
  · rw [List.map_cons, h1 d hd, C109_once, List.length_map]
  · rw [List.map_cons, h2 a b, C109_once, List.length_map]
  · obtain ⟨why, e⟩ := h3 hz
    exact ⟨why, _, by rw [List.map_cons, e]; rfl⟩

example : tempPaths .fresh ([fun x => if x = lit "TMP" then some (lit "/var/tmp/") else none, fun _ => some []].map tempDirectory) =
    [.ok (lit "/var/tmp"), .ok (lit "/var/tmp")] :=
  (C109_once_env _ (lit "/var/tmp/") ⟨[lit "TMPDIR"], lit "TMP", [lit "TEMPDIR", lit "TEMP"], rfl, by decide, by decide⟩ [_]).1 _ (by decide)

/-! ## The temporary directory on Windows -/

theorem slashed_map : ∀ s : Str, Slashed s (s.map fun c => if c = 92 then 47 else c)
  | [] => .nil
  | c :: s => by
    by_cases h : c = 92
    · subst h
      exact .back _ _ (slashed_map s)
    · have := Slashed.same c _ _ h (slashed_map s)
      simpa [h] using this

/-- C109: on Windows the temporary directory is the one of the system without the backslash at its end, with slashes for backslashes; the
empty text if there is none, and undefined behaviour if the name is too long. -/
theorem C109_temp :
    (∀ d (hf : (d ++ [92]).length < maxPath), ∃ t, Slashed d t ∧ tempDirectoryWin (.filled (d ++ [92]) hf) = .ok t) ∧
    tempDirectoryWin .failed = .ok [] ∧
    ∀ n (hn : maxPath < n), ∃ why, tempDirectoryWin (.tooLong n hn) = .ub why := by
  refine ⟨fun d hf => ⟨_, slashed_map d, ?_⟩, rfl, fun n hn => ⟨_, rfl⟩⟩
  simp [tempDirectoryWin]

/-- C109: there are no backslashes in it. -/
theorem C109_temp_no_backslash (r : GetTempPath) (t : Str) (h : tempDirectoryWin r = .ok t) : 92 ∉ t := by
  cases r with
  | failed =>
    simp only [tempDirectoryWin, Res.ok.injEq] at h
    rw [← h]
    exact List.not_mem_nil
  | filled text fits =>
    simp only [tempDirectoryWin] at h
    split at h
    · simp only [Res.ok.injEq] at h
      rw [← h]
      exact List.not_mem_nil
    · simp only [Res.ok.injEq] at h
      rw [← h]
      simp only [List.mem_map, not_exists, not_and]
      intro c _ e
      split at e
      · exact absurd e (by decide)
      · rename_i hc; exact hc e
  | tooLong n more => simp [tempDirectoryWin] at h

example : tempDirectoryWin (.filled (lit "C:\\Users\\me\\Temp\\") (by decide +kernel)) = .ok (lit "C:/Users/me/Temp") := by decide +kernel

/-! ## Directories on Windows -/

/-- C109: making a directory on Windows makes exactly the missing directories of its path, if the process may write to the part that exists,
and otherwise changes nothing; success is reported exactly if it was missing, it was made, and its path does not end with a separator. -/
theorem C109_create (fs : Fs) (wf : Wf fs) (path : Str) (b : Bool) (c : List Str) (hp : PathOf path b c) :
    MadeWin fs b c (path.getLast? = some 47) (createDirectoryWin fs path) := by
  have := createDirWin_made wf path.length path (pathOf_ne hp) (Nat.le_refl _)
  rw [pathOf_locate hp] at this
  exact this

/-- C109: the directories made are the same on all systems; only what is reported differs. -/
theorem C109_same (fs : Fs) (wf : Wf fs) (path : Str) (h : path ≠ []) :
    (∀ l, (createDirectoryWin fs path).2.kind l = (createDirectory fs path).2.kind l) ∧
    ((createDirectoryWin fs path).1 = true → (createDirectory fs path).1 = true) := by
  obtain ⟨b, c, hp⟩ := C69_paths path h
  have hw := C109_create fs wf path b c hp
  have hu := C69_create fs wf path b c hp
  cases hk : fs.kind ⟨b, c⟩ with
  | some k =>
    rw [hw.there (by simp [hk])]
    cases k with
    | dir => rw [hu.dir hk]; exact ⟨fun _ => rfl, fun h => by cases h⟩
    | file => rw [hu.file hk]; exact ⟨fun _ => rfl, fun h => by cases h⟩
  | none =>
    obtain ⟨base, x, rest, e, h1, h2⟩ := base_exists wf b c hk
    obtain ⟨a1, a2⟩ := hw.missing base x rest e h1 h2
    obtain ⟨b1, b2⟩ := hu.missing base x rest e h1 h2
    by_cases hc : fs.kind ⟨b, base⟩ = some .dir ∧ fs.writable ⟨b, base⟩ = true
    · obtain ⟨_, p2, p3⟩ := a1 hc
      obtain ⟨q1, q2, q3⟩ := b1 hc
      refine ⟨fun l => ?_, fun _ => q1⟩
      by_cases hl : ∃ t, t <+: rest ∧ l = ⟨b, base ++ x :: t⟩
      · obtain ⟨t, ht, rfl⟩ := hl
        rw [(p2 t ht).1, (q2 t ht).1]
      · have hn : ∀ t, t <+: rest → l ≠ ⟨b, base ++ x :: t⟩ := fun t ht e => hl ⟨t, ht, e⟩
        rw [(p3 l hn).1, (q3 l hn).1]
    · rw [a2 hc, b2 hc]
      exact ⟨fun _ => rfl, fun h => h⟩

/-- C109: the prefix of the files of a process ends with a separator, so that making its directory is always reported as a failure on Windows,
even if it was just made. -/
theorem C109_prefix (fs : Fs) (wf : Wf fs) (dir name : Str) (pid : Nat) : (createDirectoryWin fs (tmpPrefix dir name pid)).1 = false := by
  have hl : (tmpPrefix dir name pid).getLast? = some 47 := by
    unfold tmpPrefix
    exact getLast?_slash _
  have hne : tmpPrefix dir name pid ≠ [] := fun e => by rw [e] at hl; cases hl
  obtain ⟨b, c, hp⟩ := C69_paths _ hne
  have hw := C109_create fs wf _ b c hp
  rw [hl] at hw
  cases hk : fs.kind ⟨b, c⟩ with
  | some k => rw [hw.there (by simp [hk])]
  | none =>
    obtain ⟨base, x, rest, e, h1, h2⟩ := base_exists wf b c hk
    obtain ⟨a1, a2⟩ := hw.missing base x rest e h1 h2
    by_cases hc : fs.kind ⟨b, base⟩ = some .dir ∧ fs.writable ⟨b, base⟩ = true
    · simpa using (a1 hc).1
    · rw [a2 hc]

example : let r := createDirectoryWin someFs (tmpPrefix (lit "/tmp") (lit "k") 1)
    r.1 = false ∧ r.2.kind ⟨true, [lit "tmp", lit "k_1"]⟩ = some .dir := by decide +kernel

/-- C109: making the same directory twice is reported as a failure the second time on Windows, and as a success elsewhere: the unit test of
the library succeeds only in a fresh directory. -/
theorem C109_twice (fs : Fs) (wf : Wf fs) (path : Str) (h : path ≠ []) :
    ((createDirectoryWin fs path).1 = true → (createDirectoryWin (createDirectoryWin fs path).2 path).1 = false) ∧
    ((createDirectory fs path).1 = true → (createDirectory (createDirectory fs path).2 path).1 = true) := by
  obtain ⟨b, c, hp⟩ := C69_paths path h
  constructor
  · intro h1
    refine (congrArg Prod.fst ((C109_create _ (createDirWin_wf wf _ _) path b c hp).there ?_))
    have hw := C109_create fs wf path b c hp
    have hk : fs.kind ⟨b, c⟩ = none := by
      cases hk : fs.kind ⟨b, c⟩ with
      | none => rfl
      | some k => rw [hw.there (by simp [hk])] at h1; cases h1
    obtain ⟨base, x, rest, e, h2, h3⟩ := base_exists wf b c hk
    obtain ⟨a1, a2⟩ := hw.missing base x rest e h2 h3
    by_cases hc : fs.kind ⟨b, base⟩ = some .dir ∧ fs.writable ⟨b, base⟩ = true
    · have := ((a1 hc).2.1 rest List.prefix_rfl).1
      rw [← e] at this
      rw [show createDirWin path.length fs path = createDirectoryWin fs path from rfl, this]
      simp
    · rw [a2 hc] at h1
      cases h1
  · intro h1
    have hu := C69_create fs wf path b c hp
    cases hk : fs.kind ⟨b, c⟩ with
    | some k =>
      have e : (createDirectory fs path).2 = fs := by
        cases k with
        | dir => rw [hu.dir hk]
        | file => rw [hu.file hk]
      rw [e]
      exact h1
    | none =>
      obtain ⟨base, x, rest, e, h2, h3⟩ := base_exists wf b c hk
      obtain ⟨a1, a2⟩ := hu.missing base x rest e h2 h3
      by_cases hc : fs.kind ⟨b, base⟩ = some .dir ∧ fs.writable ⟨b, base⟩ = true
      · have := ((a1 hc).2.1 rest List.prefix_rfl).1
        rw [← e] at this
        exact congrArg Prod.fst ((C69_create _ (createDir_wf wf _ _) path b c hp).dir this)
      · rw [a2 hc] at h1
        cases h1

example : someFs.kind ⟨true, [lit "tmp", lit "intermediate"]⟩ = none ∧
    (createDirectoryWin someFs (lit "/tmp/intermediate/logs")).1 = true ∧
    (createDirectory someFs (lit "/tmp/intermediate/logs")).1 = true := by decide +kernel

/-- C109: on Windows the name of the user is the one the system gives; undefined behaviour if it gives none. -/
theorem C109_user : (∀ name : Str, 0 ∉ name → getUserNameWin (some name) = .ok name) ∧ ∃ why, getUserNameWin none = .ub why := by
  refine ⟨fun name h => ?_, _, rfl⟩
  have : name.takeWhile (· ≠ 0) = name := by
    induction name with
    | nil => rfl
    | cons c s ih =>
      simp only [List.mem_cons, not_or] at h
      rw [List.takeWhile_cons, if_pos (by simpa using Ne.symm h.1), ih h.2]
  exact congrArg Res.ok this

example : getUserNameWin (some (lit "me")) = .ok (lit "me") := C109_user.1 _ (by decide +kernel)

end Xeus
