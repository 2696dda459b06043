import Verif.Model.WGen
/-
Model of `tools/MW_add_W_matrices.py`: adding W matrices to a microwave match-up file.
-/
set_option autoImplicit false
namespace Verif
variable {α : Type} [Field α] [LinearOrder α] [IsStrictOrderedRing α] [FloorRing α]

/-- The instrument kinds of L33-35. -/
inductive MWInstr where
  | ref | amsub | mhs
  deriving DecidableEq, Repr

/-- L245-250: sensor 2 must be MHS or AMSU-B. -/
def mwInstr2 (name : String) : Py MWInstr :=
  if name ∈ ["19", "ma", "mb"] then .ok .mhs
  else if name ∈ ["15", "16", "17"] then .ok .amsub
  else .error .valueError

/-- L252-259: sensor 1 may also be the reference. -/
def mwInstr1 (name : String) : Py MWInstr :=
  if name ∈ ["19", "ma", "mb"] then .ok .mhs
  else if name ∈ ["15", "16", "17"] then .ok .amsub
  else if name ∈ ["18"] then .ok .ref
  else .error .valueError

/-- L94, the weights. -/
def mwWeights : List α := [1/16, 1/8, 3/16, 1/4, 3/16, 1/8, 1/16]

/-- L165-185 of `return_w_matrix_variables_MW`: the W matrices and u vectors. The vectors of sensor 1 after the first have the length of the first vector of
sensor **2** (L180-181). -/
def mwMatrices (times1 times2 : List α) (s : α) (uR1 uR2 wts : List α) : Py (List (CSR α) × List (List α)) := do
  let a0 ← pyGet uR2 0
  let (w2, u20) ← generateRollingAverage times2 s (.float a0) (some wts) none
  let a1 ← pyGet uR2 1
  let a2 ← pyGet uR2 2
  let u21 := List.replicate u20.length (1 * a1)
  let u22 := List.replicate u20.length (1 * a2)
  if uR1.length = 1 then pure ([w2], [u20, u21, u22])
  else do
    let b0 ← pyGet uR1 0
    let (w1, u10) ← generateRollingAverage times1 s (.float b0) (some wts) none
    let b1 ← pyGet uR1 1
    let b2 ← pyGet uR1 2
    let u11 := List.replicate u20.length (1 * b1)
    let u12 := List.replicate u20.length (1 * b2)
    pure ([w1, w2], [u10, u11, u12, u20, u21, u22])

/-- L191-227: `w_matrix_use1/2`, `u_matrix_use1/2` for the pairs of instruments (in the order use1, use2 of W, use1, use2 of u). A pair not listed leaves the variables
unassigned (`UnboundLocalError`), but sensor 2 is never the reference. -/
def mwUses : MWInstr → MWInstr → Py (List Nat × List Nat × List Nat × List Nat)
  | .ref, .amsub => .ok ([0], [1, 1, 1, 1, 1, 1, 1, 1, 1, 0, 0], [0], [1, 2, 3, 3, 3, 3, 3, 3, 3, 0, 0])
  | .ref, .mhs => .ok ([0], [1, 1, 1, 1, 1, 1, 1, 0, 0], [0], [1, 2, 3, 3, 3, 3, 3, 0, 0])
  | .mhs, .mhs => .ok ([1, 1, 1, 1, 1, 1, 1, 0, 0], [2, 2, 2, 2, 2, 2, 2, 0, 0], [1, 2, 3, 3, 3, 3, 3, 0, 0], [4, 5, 6, 6, 6, 6, 6, 0, 0])
  | .amsub, .mhs => .ok ([1, 1, 1, 1, 1, 1, 1, 1, 1, 0, 0], [2, 2, 2, 2, 2, 2, 2, 0, 0], [1, 2, 3, 3, 3, 3, 3, 3, 3, 0, 0], [4, 5, 6, 6, 6, 6, 6, 0, 0])
  | .mhs, .amsub => .ok ([1, 1, 1, 1, 1, 1, 1, 0, 0], [2, 2, 2, 2, 2, 2, 2, 2, 2, 0, 0], [1, 2, 3, 3, 3, 3, 3, 0, 0], [4, 5, 6, 6, 6, 6, 6, 6, 6, 0, 0])
  | .amsub, .amsub => .ok ([1, 1, 1, 1, 1, 1, 1, 1, 1, 0, 0], [2, 2, 2, 2, 2, 2, 2, 2, 2, 0, 0], [1, 2, 3, 3, 3, 3, 3, 3, 3, 0, 0], [4, 5, 6, 6, 6, 6, 6, 6, 6, 0, 0])
  | _, .ref => .error .unboundLocalError

/-- L279-289: `uncertainty_type1/2`. -/
def mwTypes : MWInstr → List Nat
  | .ref => [1]
  | .amsub => [3, 3, 4, 4, 4, 4, 4, 4, 4, 1, 2]
  | .mhs => [3, 3, 4, 4, 4, 4, 4, 1, 2]

/-- L295-307: the number of leading columns of `Ur` set to zero. -/
def mwZeroed : MWInstr → Nat
  | .ref => 0
  | .amsub => 9
  | .mhs => 7

/-- `variable[:] = l` of a variable with `m` entries: as many values, or one for all. -/
def assignEntries (m : Nat) (l : List Nat) : Py (Nat → Nat) :=
  if l.length = m then .ok fun c => l.getD c 0
  else match l with
    | [x] => .ok fun _ => x
    | _ => .error .valueError

/-- One side with its types, zeroed random uncertainties and use numbers (L280-307, append_W_to_input_file). -/
def mwSide (i : MWInstr) (s : Side α) (wu uu : List Nat) : Py (Side α) := do
  let t ← assignEntries s.m (mwTypes i)
  let w ← assignEntries s.m wu
  let u ← assignEntries s.m uu
  pure { s with utype := t, wUse := w, uUse := u, Ur := fun r c => if c < mwZeroed i then 0 else s.Ur r c }

/-- L87-88 `variables['Ur'][0, :]`. -/
def firstRow (M : Nat) (s : Side α) : Py (List α) := if M = 0 then .error .indexError else .ok ((List.range s.m).map fun c => s.Ur 0 c)

/-- L38-96 and L230-321 `run`: the file written. `read_matchup_data` reads `time1` for both sensors (L84-85) and the first rows of `Ur1`, `Ur2` (`IndexError` without
match-ups). A file that already has W matrices cannot get the dimensions a second time (`RuntimeError`). The final `test_input_file` is the checker (Model/Checker). -/
def mwRun (d : Dataset α) : Py (Dataset α) := do
  let time1 := vector d.M d.time1
  let time2 := vector d.M d.time1
  let uR1 ← firstRow d.M d.s1
  let uR2 ← firstRow d.M d.s2
  let i2 ← mwInstr2 d.s2.name
  let i1 ← mwInstr1 d.s1.name
  let (ws, us) ← mwMatrices time1 time2 (8 / 3) uR1 uR2 mwWeights
  let v ← returnWMatrixVariables ws us
  let (w1, w2, u1, u2) ← mwUses i1 i2
  let s1 ← mwSide i1 d.s1 w1 u1
  let s2 ← mwSide i2 d.s2 w2 u2
  if d.hasUse then .error .runtimeError
  else pure ({ d with s1 := s1, s2 := s2, hasUse := true }.withW v)

end Verif
