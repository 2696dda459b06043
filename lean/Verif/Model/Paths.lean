import Verif.Model.Py
import Mathlib.Data.String.Basic
/-
Model of `MatchUpReader.open_nc_datasets` (MatchUpReader.py L155-189): which files are opened for a path argument.
-/
set_option autoImplicit false
namespace Verif

/-- The part of the file system consulted: `os.path.isdir`, `os.path.isfile`, `os.listdir` (in an unspecified order). -/
structure FS where
  isDir : String → Bool
  isFile : String → Bool
  listDir : String → List String

/-- `os.path.join(dir, name)` for a name without a leading slash (as returned by `listdir`). -/
def pjoin (dir name : String) : String :=
  if dir.toList = [] ∨ dir.toList.getLast? = some '/' then dir ++ name else dir ++ "/" ++ name

/-- `fname[-3:] == ".nc"` (MatchUpReader.py L172). -/
def isNc (name : String) : Bool := decide (name.toList.drop (name.toList.length - 3) = ".nc".toList)

/-- The argument `paths_matchup`: a string or a list of strings. -/
inductive PathArg where
  | str (p : String)
  | list (l : List String)

/-- MatchUpReader.py L169-189: the paths handed to `Dataset(path, 'r')`, `none` for `return None`. -/
def resolvePaths (fs : FS) : PathArg → Option (List String)
  | .str p =>
    if fs.isDir p then
      some ((((fs.listDir p).filter isNc).map (pjoin p)).mergeSort (fun a b => decide (a ≤ b)))
    else if fs.isFile p then some [p]
    else none
  | .list l =>
    if l.all fs.isFile then some l
    else if l.all fs.isDir then some (l.flatMap fun d => (fs.listDir d).map (pjoin d))
    else none

end Verif
