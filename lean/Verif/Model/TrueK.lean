import Verif.Model.Paths
import Verif.Model.Switches
import Verif.Model.Measurand
/-
Model of tools/simulation_set_true_K.py (`main`, L33-60): a data set with the K given by the sensor models.

Simplifications: the directories contain only files (no subdirectories) and the output directory is not inside the input directory, so that the listing
of the input directory does not change; the dimension `M` of a file is fixed; the sensor data file is given by its dictionary; `nplcore` (the older name of
the package) is read as the package of this repository.  Files changed before an exception is raised are not modelled.
-/
set_option autoImplicit false
namespace Verif
variable {α δ : Type}

/-- A disk: the queries of the reader, and the match-up file at each path. -/
structure Disk (α : Type) where
  fs : FS
  file : String → Option (Dataset α)

/-- `Dataset(path)`: `IOError` when there is no such file. -/
def Disk.openFile (disk : Disk α) (path : String) : Py (Dataset α) :=
  match disk.file path with
  | some d => .ok d
  | none => .error .ioError

/-- A file written at a path. -/
def Disk.put (disk : Disk α) (path : String) (d : Dataset α) : Disk α :=
  { disk with file := fun p => if p = path then some d else disk.file p }

/-- MatchUpReader.py L155-189 `open_nc_datasets` on a directory; `None` cannot be iterated over: `TypeError`. -/
def Disk.openAll (disk : Disk α) (dir : String) : Py (List (Dataset α)) :=
  match resolvePaths disk.fs (.str dir) with
  | some ps => ps.mapM disk.openFile
  | none => .error .typeError

/-- `copy_tree(src, dst)` (L48). -/
def Disk.copyTree (disk : Disk α) (src dst : String) : Disk α :=
  (disk.fs.listDir src).foldl (fun dk n =>
    match disk.file (pjoin src n) with
    | some d => dk.put (pjoin dst n) d
    | none => dk) disk

/-- `variables['K'][:] = k` (L55). -/
def Dataset.setK [Zero α] (d : Dataset α) (k : List α) : Py (Dataset α) := do
  let new ← setSlice (vector d.M d.K) 0 d.M k
  pure { d with K := fun r => new.getD r 0 }

/-- The loop body L51-56. -/
def trueKStep [Zero α] (cNm : List Nat) (k : List α) (disk : Disk α) (job : String × Nat) : Py (Disk α) := do
  let istart ← pyGet cNm job.2
  let iend ← pyGet cNm (job.2 + 1)
  let d ← disk.openFile job.1
  let d' ← d.setK (slice k istart iend)
  pure (disk.put job.1 d')

/-- L33-60 `main`. The paths `dataset_out_paths` (L49) are built from the *input* directory, in the order of `listdir`. -/
def setTrueK [Zero α] [One α] [Sub α] [DecidableEq α] (env : ReadEnv α δ) (disk : Disk α) (inDir : String)
    (sd : SensorData α (SensorModel α δ) (AdjModel α)) (outDir : String) : Py (Disk α) := do
  let ds ← disk.openAll inDir
  let ms ← openMatchUpWithIf env defaultAdjustment ds sd false true
  let k ← evaluateK ms (.num 0)
  let copied := disk.copyTree inDir outDir
  let outPaths := (copied.fs.listDir inDir).map (pjoin inDir)
  outPaths.zipIdx.foldlM (trueKStep ms.mu.idx.cNm k) copied

end Verif
