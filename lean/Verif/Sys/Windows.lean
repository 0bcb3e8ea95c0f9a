import Verif.Sys.Model

/-!
# Temporary files: the first call decides; the branches for Windows

Models `get_temp_directory_path` with its static variable (src/xsystem.cpp:62-66), the branches for Windows of
`get_temp_directory_path_impl` (src/xsystem.cpp:40-48) and `create_directory` (src/xsystem.cpp:68-76), and the one of `get_user_name`
(src/xkernel.cpp:64-68).  Paths have no drive and no separator but `/`, as those that the library makes after replacing `\`.
-/

namespace Xeus.Sys

open Xeus

/-! ## The temporary directory of a process -/

/-- What happened to the static variable `path` (src/xsystem.cpp:64): it was not reached, has a value, or the program has gone astray. -/
inductive Static where
  | fresh
  | set (path : Str)
  | astray

/-- `get_temp_directory_path` (src/xsystem.cpp:62-66): the first call makes the value, with what `impl` gives at that time. -/
def tempPath (impl : Res Str) : Static → Res Str × Static
  | .set path => (.ok path, .set path)
  | .astray => (.ub "after undefined behaviour", .astray)
  | .fresh => match impl with
    | .ok path => (.ok path, .set path)
    | r => (r, .astray)

/-- Calls one after the other, in environments that may have changed in between. -/
def tempPaths : Static → List (Res Str) → List (Res Str)
  | _, [] => []
  | s, impl :: l => (tempPath impl s).1 :: tempPaths (tempPath impl s).2 l

/-! ## Windows -/

/-- `MAX_PATH`. -/
def maxPath : Nat := 260

/-- What `GetTempPathA(MAX_PATH, buffer)` does: it fails and returns 0; or it fills the buffer with a text and a NUL and returns the length of
the text; or the text and the NUL do not fit, it returns the length needed and leaves the buffer undetermined. -/
inductive GetTempPath where
  | failed
  | filled (text : Str) (fits : text.length < maxPath)
  | tooLong (needed : Nat) (more : maxPath < needed)

/-- `get_temp_directory_path_impl` (src/xsystem.cpp:40-48). -/
def tempDirectoryWin : GetTempPath → Res Str
  | .failed => .ok []
  | .filled text _ =>
    if text.length = 0 then .ok []
    else .ok ((text.take (text.length - 1)).map fun c => if c = 92 then 47 else c)
  | .tooLong _ _ => .ub "a text made of an undetermined buffer"

/-- `create_directory` (src/xsystem.cpp:68-76), `CreateDirectoryA` being like `mkdir`; `fuel` bounds the recursion, which is on shorter and
shorter paths. -/
def createDirWin : (fuel : Nat) → Fs → Str → Bool × Fs
  | 0, fs, path => mkdir fs path
  | fuel + 1, fs, path =>
    match rsplit path with
    | some (c :: q, _) => mkdir (createDirWin fuel fs (c :: q)).2 path
    | _ => mkdir fs path

def createDirectoryWin (fs : Fs) (path : Str) : Bool × Fs := createDirWin path.length fs path

/-- `get_user_name` (src/xkernel.cpp:64-68): the outcome of `GetUserName`, which fills the buffer or fails, is not looked at. -/
def getUserNameWin : Option Str → Res Str
  | some name => .ok (name.takeWhile (· ≠ 0))
  | none => .ub "a text made of an undetermined buffer"

end Xeus.Sys
