import Verif.Model.WFile
/-
Model of writing match-up files: `write_input_file` (tools/W_matrix_functions.py L24-190), `append_W_to_input_file` (L280-400), and
`MatchUpWriter.write_input_file` (EIV/core/matchup/matchupIO/MatchUpWriter.py L69-256).
-/
set_option autoImplicit false
namespace Verif
variable {α : Type}

/-- A two-dimensional numpy array. -/
structure Arr (α : Type) where
  nrows : Nat
  ncols : Nat
  val : Nat → Nat → α

/-- What is written about one sensor. -/
structure SideArrays (α : Type) where
  name : String
  X : Arr α
  Ur : Arr α
  Us : Arr α
  utype : List Nat
  wUse : List Nat
  uUse : List Nat

/-- The arguments of `write_input_file` and, with the matrices they were made of, those of `append_W_to_input_file`. An additional variable is given by its dimensions and its
flattened data; data types and descriptions are left out. -/
structure FileArrays (α : Type) where
  s1 : SideArrays α
  s2 : SideArrays α
  K : List α
  Kr : List α
  Ks : List α
  time1 : List α
  time2 : List α
  additional : List (String × NcVar α)

/-- `variable[:] = a[:]` for a variable with dimensions of sizes `M` and `m`: equal sizes, or one row or column for all. (A dimension created with size 0 is unlimited
and would grow; this is not modelled.) -/
def Arr.put (M m : Nat) (a : Arr α) : Py (Nat → Nat → α) :=
  if (a.nrows = M ∨ a.nrows = 1) ∧ (a.ncols = m ∨ a.ncols = 1) then
    .ok fun r c => a.val (if a.nrows = M then r else 0) (if a.ncols = m then c else 0)
  else .error .valueError

/-- The same for one dimension. -/
def putList {β : Type} [Zero β] (m : Nat) (l : List β) : Py (Nat → β) :=
  if l.length = m then .ok fun i => l.getD i 0
  else match l with
    | [x] => .ok fun _ => x
    | _ => .error .valueError

/-- The variables created before the additional ones (W_matrix_functions.py L101-176). -/
def writtenNames : List String :=
  ["X1", "X2", "Ur1", "Ur2", "Us1", "Us2", "uncertainty_type1", "uncertainty_type2", "K", "Kr", "Ks", "time1", "time2"]

/-- The size of a dimension of the file; `createVariable` refuses others. -/
def dimSize (M m1 m2 : Nat) (name : String) : Py Nat :=
  if name = "M" then .ok M else if name = "m1" then .ok m1 else if name = "m2" then .ok m2 else .error .valueError

/-- L178-184: one additional variable; a name already in use is refused (`RuntimeError`). -/
def writeAdditional [Zero α] (M m1 m2 : Nat) (acc : List (String × NcVar α)) (v : String × NcVar α) : Py (List (String × NcVar α)) :=
  if v.1 ∈ writtenNames ∨ v.1 ∈ acc.map (·.1) then .error .runtimeError
  else do
    let sizes ← v.2.dims.mapM (dimSize M m1 m2)
    let data ← putList sizes.prod v.2.data
    pure (acc ++ [(v.1, { v.2 with data := (List.range sizes.prod).map data })])

/-- The part of one side (no matrix numbers yet). -/
def writeSide [Zero α] (M : Nat) (s : SideArrays α) : Py (Side α) := do
  let X ← s.X.put M s.X.ncols
  let Ur ← s.Ur.put M s.X.ncols
  let Us ← s.Us.put M s.X.ncols
  let t ← putList s.X.ncols s.utype
  pure { name := s.name, m := s.X.ncols, X := X, Ur := Ur, Us := Us, utype := t, wUse := fun _ => 0, uUse := fun _ => 0 }

/-- tools/W_matrix_functions.py L92-190 `write_input_file`: the file written. The two sides are taken one after the other, so when several
arrays do not fit, the order of the (identical) errors differs from the code. -/
def writeInputFile [Zero α] (f : FileArrays α) : Py (Dataset α) := do
  let M := f.s1.X.nrows
  let s1 ← writeSide M f.s1
  let s2 ← writeSide M f.s2
  let K ← putList M f.K
  let Kr ← putList M f.Kr
  let Ks ← putList M f.Ks
  let time1 ← putList M f.time1
  let time2 ← putList M f.time2
  let vars ← f.additional.foldlM (writeAdditional M s1.m s2.m) []
  pure { M := M, s1 := s1, s2 := s2, K := K, Kr := Kr, Ks := Ks, time1 := time1, time2 := time2, hasUse := false, vars := vars
         wNnz := [], wVal := [], wCol := [], wRow := [], uCount := [], uVal := [] }

/-- L280-400 `append_W_to_input_file`; the W variables take the sizes of the arrays given. A file that has them already is refused (`RuntimeError`). -/
def appendW (d : Dataset α) (v : WVars α) (w1 w2 u1 u2 : List Nat) : Py (Dataset α) := do
  if d.hasUse then .error .runtimeError
  else do
    let w1 ← putList d.s1.m w1
    let w2 ← putList d.s2.m w2
    let u1 ← putList d.s1.m u1
    let u2 ← putList d.s2.m u2
    pure ({ d with s1 := { d.s1 with wUse := w1, uUse := u1 }, s2 := { d.s2 with wUse := w2, uUse := u2 }, hasUse := true }.withW v)

/-- A file with matrices: `write_input_file`, `return_w_matrix_variables` and `append_W_to_input_file` one after the other, as the conversion tools call them
(`write_file`, tools/AVHRR_to_updated_spec.py L626-650). -/
def writeWithMatrices [Zero α] (f : FileArrays α) (ws : List (CSR α)) (us : List (List α)) : Py (Dataset α) := do
  let d ← writeInputFile f
  let v ← returnWMatrixVariables ws us
  appendW d v f.s1.wUse f.s2.wUse f.s1.uUse f.s2.uUse

/-- EIV/core/matchup/matchupIO/MatchUpWriter.py L69-256 `MatchUpWriter.write_input_file`: as above, and the argument `w_matrix_variables` is not used (L237-239). -/
def matchUpWriterFile [Zero α] (f : FileArrays α) (_w_matrix_variables : Option (WVars α × List Nat × List Nat × List Nat × List Nat)) : Py (Dataset α) :=
  writeInputFile f

/-- MatchUpWriter.py L46-49 `writeMatchUp`: returns 0 and writes nothing; the effect on a file system (path ↦ file). -/
def writeMatchUp {μ : Type} (fs : List (String × Dataset α)) (_matchup : μ) (_path : String) : List (String × Dataset α) := fs

end Verif
