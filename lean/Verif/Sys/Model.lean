import Verif.Base

/-!
# Temporary files: the model

Models src/xsystem.cpp:28-126 (the branches for systems other than Windows).  The environment variables, the file system
and the hash are parameters; the file system has directories and files, no symbolic links, and the components `.` and
`..` are not treated specially.  Values of environment variables and paths contain no NUL byte.
-/

namespace Xeus.Sys

open Xeus

/-- `remove_ending_separator` (src/xsystem.cpp:28-36): reads before the text if it is empty. -/
def removeEndingSeparator (path : Str) : Res Str :=
  match path.getLast? with
  | none => .ub "read before the beginning of an empty text"
  | some c => .ok (if c = 47 then path.dropLast else path)

/-- `get_temp_directory_path_impl` (src/xsystem.cpp:38-60). -/
def tempDirectory (getenv : Str → Option Str) : Res Str :=
  match getenv (lit "TMPDIR") with
  | some d => removeEndingSeparator d
  | none => match getenv (lit "TMP") with
    | some d => removeEndingSeparator d
    | none => match getenv (lit "TEMPDIR") with
      | some d => removeEndingSeparator d
      | none => match getenv (lit "TEMP") with
        | some d => removeEndingSeparator d
        | none => .ok (lit "/tmp")

/-! ## Directories -/

/-- A place in the file system: from the root or from the current directory, and the components of the path. -/
structure Loc where
  abs : Bool
  comps : List Str
  deriving DecidableEq, Repr

inductive Kind where
  | dir | file
  deriving DecidableEq, Repr

/-- What is where, and in which directories the process may make entries. -/
structure Fs where
  kind : Loc → Option Kind
  writable : Loc → Bool

/-- The components of a path, `cur` being the beginning of the current one; repeated separators count as one. -/
def compsFrom (cur : Str) : Str → List Str
  | [] => if cur = [] then [] else [cur]
  | c :: s => if c = 47 then (if cur = [] then compsFrom [] s else cur :: compsFrom [] s) else compsFrom (cur ++ [c]) s

def locate (path : Str) : Loc := ⟨path.head? = some 47, compsFrom [] path⟩

/-- `stat(path) != -1`: nothing is called the empty path, and a file is not found under a name ending with a separator. -/
def statOk (fs : Fs) (path : Str) : Bool :=
  path ≠ [] && match fs.kind (locate path) with
    | none => false
    | some .dir => true
    | some .file => path.getLast? ≠ some 47

/-- `mkdir(path, 0700)`: fails if there is something of that name, or the parent is not a directory the process may
write to. -/
def mkdir (fs : Fs) (path : Str) : Bool × Fs :=
  let l := locate path
  let parent : Loc := ⟨l.abs, l.comps.dropLast⟩
  if path ≠ [] ∧ fs.kind l = none ∧ fs.kind parent = some .dir ∧ fs.writable parent = true then
    (true, { kind := fun x => if x = l then some .dir else fs.kind x, writable := fun x => if x = l then true else fs.writable x })
  else (false, fs)

/-- The text before and after the last separator (`path.rfind('/')`). -/
def rsplit : Str → Option (Str × Str)
  | [] => none
  | c :: s => match rsplit s with
    | some (a, b) => some (c :: a, b)
    | none => if c = 47 then some ([], s) else none

/-- src/xsystem.cpp:80-87. -/
def ensure (fs : Fs) (path : Str) : Bool × Fs :=
  if statOk fs path then (true, fs) else mkdir fs path

/-- `create_directory` (src/xsystem.cpp:68-89); `fuel` bounds the recursion, which is on shorter and shorter paths. -/
def createDir : (fuel : Nat) → Fs → Str → Bool × Fs
  | 0, fs, path => ensure fs path
  | fuel + 1, fs, path =>
    match rsplit path with
    | some (c :: q, _) => ensure (createDir fuel fs (c :: q)).2 path
    | _ => ensure fs path

def createDirectory (fs : Fs) (path : Str) : Bool × Fs := createDir path.length fs path

/-! ## Names of files -/

/-- `get_cell_tmp_file` with a number (src/xsystem.cpp:100-105). -/
def cellTmpFileOld (pref : Str) (executionCount : Int) (extension : Str) : Str :=
  pref ++ lit "/[" ++ intToString executionCount ++ lit "]" ++ extension

/-- `get_tmp_prefix` (src/xsystem.cpp:112-119). -/
def tmpPrefix (tempDir processName : Str) (pid : Nat) : Str :=
  tempDir ++ [47] ++ processName ++ [95] ++ natDigits pid ++ [47]

/-- `get_cell_tmp_file` with a text (src/xsystem.cpp:121-128); `hash` is `xtl::murmur2_x86` with the seed. -/
def cellTmpFile (hash : Str → Nat) (pref content suffix : Str) : Str := pref ++ natDigits (hash content) ++ suffix

end Xeus.Sys
