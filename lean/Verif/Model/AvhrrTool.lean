import Verif.Model.Writer
import Verif.Model.WGen
import Verif.Model.Paths
import Verif.Model.Transform
import Verif.Model.Radiance
/-
Model of `tools/AVHRR_to_updated_spec.py` (L37-908): six new match-up files from an older AVHRR match-up file.

Simplifications: the order of the keys of the dictionary of additional variables (arbitrary in Python 2) is that of a list; data types and descriptions are left
out; all variables of the file have one row per match-up (dimension `M`); files written before an exception is raised are not modelled, nor is the final check of
each file (`test_input_file`, see Model/Checker). `convertBT2rad` (L653-656) is a parameter of the run.
-/
set_option autoImplicit false
namespace Verif
variable {α : Type}

/-- `additional_variables[name] = data`. -/
def dictSet {β : Type} (d : List (String × β)) (name : String) (x : β) : List (String × β) :=
  if name ∈ d.map (·.1) then d.map fun e => if e.1 = name then (name, x) else e else d ++ [(name, x)]

/-- `additional_variables[name]`, `KeyError` if absent. -/
def dictGet {β : Type} (d : List (String × β)) (name : String) : Py β :=
  match d.find? (fun e => e.1 == name) with
  | some e => .ok e.2
  | none => .error .keyError

/-- The variables of the file given (read by `read_matchup_data`, L46-137). `none` is nan in the scan-line uncertainties. `refFirst`: `H[0, 3]` is nan, which marks sensor 1 as
the reference; other nan values of `H` (in columns 1 to 4 of such a file) are not represented. -/
structure AvhrrRaw (α : Type) where
  M : Nat
  lm : Int × Int
  H : Nat → Nat → α
  Ur : Nat → Nat → α
  Us : Nat → Nat → α
  refFirst : Bool
  K : Nat → α
  Kr : Nat → α
  Ks : Nat → α
  time1 : Nat → α
  time2 : Nat → α
  uS1 : List (List (Option α))
  uI1 : List (List (Option α))
  uS2 : List (List (Option α))
  uI2 : List (List (Option α))
  vars : List (String × List α)

/-- L34-38 and L41-43 `get_new_name`: `None` for a sensor not in the table. -/
def avhrrNames : List (Int × String) :=
  [(-12, "aatsr"), (-11, "atsr2"), (-10, "atsr1"), (-1, "m02"), (19, "n19"), (18, "n18"), (17, "n17"), (16, "n16"), (15, "n15"), (14, "n14"), (12, "n12"), (11, "n11"),
   (10, "n10"), (9, "n09"), (8, "n08"), (7, "n07")]

def getNewName (id : Int) : Option String := (avhrrNames.find? fun e => e.1 == id).map (·.2)

/-- `"BT" in var`. -/
def hasBT : List Char → Bool
  | 'B' :: 'T' :: _ => true
  | _ :: t => hasBT t
  | [] => false

/-- `int(var[-2:])`; signs and blanks, which Python would accept, are not modelled. -/
def bandOfName (name : String) : Py Nat :=
  let cs := name.toList.drop (name.toList.length - 2)
  if cs ≠ [] ∧ cs.all Char.isDigit then .ok (cs.foldl (fun n c => 10 * n + (c.toNat - 48)) 0) else .error .valueError

/-- `var[:-2]`. -/
def dropBand (name : String) : String := String.ofList (name.toList.take (name.toList.length - 2))

/-- L679-680, one step: `additional_variables[BTvar[:-2]] = additional_variables.pop(BTvar)`. -/
def renameBT (d : List (String × List α)) (name : String) : Py (List (String × List α)) := do
  let x ← dictGet d name
  pure (dictSet (d.filter fun e => e.1 != name) (dropBand name) x)

/-- L674-704: the band, the new names and the dictionary of additional variables, with the radiances in it. -/
def avhrrVariables [NatCast α] (conv : Option String → List α → Py (List α)) (raw : AvhrrRaw α) : Py (Nat × List (String × List α)) := do
  let bts := (raw.vars.map (·.1)).filter fun n => hasBT n.toList
  let b0 ← pyGet bts 0
  let band ← bandOfName b0
  let vars ← bts.foldlM renameBT raw.vars
  let vars := dictSet vars "original_indices" ((List.range raw.M).map fun (i : Nat) => (i : α))
  match vars.find? (fun e => e.1 == "ref_BT") with
  | none => pure (band, vars)
  | some ref => do
    let r1 ← conv (getNewName raw.lm.1) ref.2
    let bt ← dictGet vars "BT"
    let r2 ← conv (getNewName raw.lm.2) bt
    pure (band, dictSet (dictSet vars "nominal_measurand1" r1) "nominal_measurand2" r2)

/-- L653-656 `convertBT2rad`: always channel 2. Temperatures are taken to be finite; nan in the result (temperatures not above zero) is left out, and is 0 here. -/
noncomputable def convertBT2rad (name : Option String) (T : List ℝ) : Py (List ℝ) :=
  match name with
  | none => .error .runtimeError
  | some n => do
    let c ← returnBandCoefs n
    let r ← temp2radArray c 1 (T.map some) 2
    pure (r.map fun x => x.getD 0)

/-- `where(isnan(row))[0].size != 0`. -/
def hasNan (row : List (Option α)) : Bool := row.any (·.isNone)

/-- L140-184 `return_valid_averages_mask` without temperature limit: match-up `i` is kept unless a row has a nan. -/
def avhrrValid (u11 u12 u21 u22 : List (List (Option α))) : List Bool :=
  (List.range u11.length).map fun i => !(hasNan (u11.getD i []) || hasNan (u12.getD i []) || hasNan (u21.getD i []) || hasNan (u22.getD i []))

/-- L173-178: the same with a temperature limit. -/
def avhrrValidLim [LT α] [DecidableLT α] [Zero α] (u11 u12 u21 u22 : List (List (Option α))) (bt : List α) (lim : α) : List Bool :=
  (avhrrValid u11 u12 u21 u22).zipIdx.map fun e => e.1 && !decide (bt.getD e.2 0 < lim)

/-- L706-713. -/
def avhrrMask [LT α] [DecidableLT α] [Zero α] (raw : AvhrrRaw α) (vars : List (String × List α)) (lim : Option α) : Py (List Bool) :=
  match lim with
  | none => .ok (avhrrValid raw.uS1 raw.uI1 raw.uS2 raw.uI2)
  | some l => do
    let bt ← dictGet vars "BT11"
    pure (avhrrValidLim raw.uS1 raw.uI1 raw.uS2 raw.uI2 bt l)

/-- The rows selected by a mask. -/
def keptRows (mask : List Bool) : List Nat := (List.range mask.length).filter fun i => mask.getD i false

/-- `a[valid, lo:lo+m]`. -/
def takeRows (kept : List Nat) (f : Nat → Nat → α) (lo m : Nat) : Arr α := ⟨kept.length, m, fun r c => f (kept.getD r 0) (lo + c)⟩

/-- `a[valid]`. -/
def takeVec (kept : List Nat) (f : Nat → α) : List α := kept.map f

/-- The rows of scan-line uncertainties kept; they have no nan. -/
def takeScan [Zero α] (kept : List Nat) (u : List (List (Option α))) : List (List α) := kept.map fun i => (u.getD i []).map fun x => x.getD 0

/-- L187-205 `return_additional_variables`: the old and the new names. -/
def avhrrRenamed : List (String × String) :=
  [("original_indices", "original_indices"), ("latitude", "lat2"), ("longitude", "lon2"), ("satza", "vza2"), ("solza", "sza2"), ("BT", "nominal_measurand2"),
   ("ref_latitude", "lat1"), ("ref_longitude", "lon1"), ("ref_satza", "vza1"), ("ref_solza", "sza1"), ("ref_BT", "nominal_measurand1")]

def avhrrAdditional [Zero α] (vars : List (String × List α)) (kept : List Nat) : List (String × NcVar α) :=
  avhrrRenamed.filterMap fun e => (vars.find? fun v => v.1 == e.1).map fun v => (e.2, ⟨["M"], kept.map fun i => v.2.getD i 0⟩)

section
variable [Field α] [LinearOrder α] [IsStrictOrderedRing α] [FloorRing α]

/-- L208-269 `return_w_matrices` with scan lines of 0.5 s (L748-754). -/
def avhrrMatrices (refFirst : Bool) (uS1 uI1 uS2 uI2 : List (List α)) (time1 time2 : List α) : Py (List (CSR α) × List (List α)) := do
  let (w2, vS2) ← generateRollingAverage time2 (1 / 2) (.rows uS2) none none
  let (_, vI2) ← generateRollingAverage time2 (1 / 2) (.rows uI2) none none
  if refFirst then pure ([w2], [vS2, vI2])
  else do
    let (w1, vS1) ← generateRollingAverage time1 (1 / 2) (.rows uS1) none none
    let (_, vI1) ← generateRollingAverage time1 (1 / 2) (.rows uI1) none none
    pure ([w1, w2], [vS1, vI1, vS2, vI2])

end

/-- L428-497 `prepare_directories`: the band, an integer, is compared with the string "37". -/
def pyIntEqStr (_ : Nat) (_ : String) : Bool := false

/-- The six paths, in the order returned; `base` is the name of the file given without its directory. -/
def avhrrPaths (dir base : String) (band : Nat) : List String :=
  let dirs := if pyIntEqStr band "37" then
      ["AVHRR_REAL_105_RSW_", "AVHRR_REAL_106_RSW_", "AVHRR_REAL_105_R_W_", "AVHRR_REAL_106_R_W_", "AVHRR_REAL_105_R___", "AVHRR_REAL_106_R___"]
    else ["AVHRR_REAL_101_RSW_", "AVHRR_REAL_102_RSW_", "AVHRR_REAL_101_R_W_", "AVHRR_REAL_102_R_W_", "AVHRR_REAL_101_R___", "AVHRR_REAL_102_R___"]
  dirs.map fun d => pjoin (pjoin dir d) base

/-- The first `m` columns: `a[:, :m]`. -/
def Arr.cols (a : Arr α) (m : Nat) : Arr α := ⟨a.nrows, min m a.ncols, a.val⟩

/-- What is known of one sensor before writing (L715-737, L763-778). -/
structure AvhrrSide (α : Type) where
  name : Option String
  X : Arr α
  Ur : Arr α
  Us : Arr α
  utype : List Nat
  wUse : List Nat
  uUse : List Nat

/-- The columns of one side written to a file (`X1[:,:m1]` and so on). An attribute cannot be `None` (`TypeError`). -/
def AvhrrSide.cut (s : AvhrrSide α) (m : Nat) : Py (SideArrays α) :=
  match s.name with
  | none => .error .typeError
  | some n => .ok { name := n, X := s.X.cols m, Ur := s.Ur.cols m, Us := s.Us.cols m, utype := s.utype.take m, wUse := s.wUse.take m, uUse := s.uUse.take m }

/-- L795-806: the last column as additional variable in the files with four columns. -/
def toVars (s : AvhrrSide α) (name : String) (m : Nat) : List (String × NcVar α) :=
  if m = 4 then [(name, ⟨["M"], (List.range s.X.nrows).map fun r => s.X.val r (s.X.ncols - 1)⟩)] else []

/-- The state of `main` before writing. -/
structure AvhrrState (α : Type) where
  s1 : AvhrrSide α
  s2 : AvhrrSide α
  K : List α
  Kr : List α
  Ks : List α
  time1 : List α
  time2 : List α
  additional : List (String × NcVar α)

/-- The arguments of `write_file` in the loops L790-814, L829-858, L881-904. -/
def AvhrrState.arrays (st : AvhrrState α) (m1 m2 : Nat) : Py (FileArrays α) := do
  let s1 ← st.s1.cut m1
  let s2 ← st.s2.cut m2
  pure { s1 := s1, s2 := s2, K := st.K, Kr := st.Kr, Ks := st.Ks, time1 := st.time1, time2 := st.time2
         additional := st.additional ++ (toVars st.s1 "To1" m1 ++ toVars st.s2 "To2" m2) }

/-- L763-778: types and numbers of the matrices; `first` for sensor 1. -/
def avhrrUses (refFirst : Bool) (first : Bool) : List Nat × List Nat × List Nat :=
  match refFirst, first with
  | false, true => ([3, 3, 1, 2, 2], [1, 1, 0, 0, 0], [1, 2, 0, 0, 0])
  | false, false => ([3, 3, 1, 2, 2], [2, 2, 0, 0, 0], [3, 4, 0, 0, 0])
  | true, true => ([1], [0], [0])
  | true, false => ([3, 3, 1, 2, 2], [1, 1, 0, 0, 0], [1, 2, 0, 0, 0])

/-- L821-826: systematic uncertainties zero, `uncertainty_type[3:] = 1` (for the reference the list has one entry, so this changes nothing). -/
def AvhrrSide.noSystematic [Zero α] (s : AvhrrSide α) : AvhrrSide α :=
  { s with Us := ⟨s.Us.nrows, s.Us.ncols, fun _ _ => 0⟩, utype := s.utype.take 3 ++ (s.utype.drop 3).map fun _ => 1 }

/-- L862-874: `Ur[:, i] = w_matrix.dot(u_matrix)` for one structured column. -/
def combineColumn [Field α] (s : AvhrrSide α) (ws : List (CSR α)) (us : List (List α)) (Ur : Arr α) (c : Nat × Nat) : Py (Arr α) :=
  if c.1 = 3 then do
    let w ← pyGet ws (s.wUse.getD c.2 0 - 1)
    let u ← pyGet us (s.uUse.getD c.2 0 - 1)
    let x ← csrDot w u
    if x.length = Ur.nrows then pure { Ur with val := fun r j => if j = c.2 then x.getD r 0 else Ur.val r j } else .error .valueError
  else pure Ur

/-- L862-880: without structured effects. -/
def AvhrrSide.combined [Field α] (s : AvhrrSide α) (ws : List (CSR α)) (us : List (List α)) : Py (AvhrrSide α) := do
  let Ur ← s.utype.zipIdx.foldlM (combineColumn s ws us) s.Ur
  pure { s with Ur := Ur, utype := s.utype.map fun _ => 1 }

section
variable [Field α] [LinearOrder α] [IsStrictOrderedRing α] [FloorRing α]

/-- L715-759: the state, the matrices and the vectors. `H[0, 3]` needs a match-up (`IndexError`). -/
def avhrrPrepare (raw : AvhrrRaw α) (kept : List Nat) (vars : List (String × List α)) : Py (AvhrrState α × List (CSR α) × List (List α)) := do
  if raw.M = 0 then .error .indexError
  else do
    let m1 := if raw.refFirst then 1 else 5
    let Ur := fun (r c : Nat) => if c = 5 ∨ c = 6 ∨ (raw.refFirst = false ∧ (c = 0 ∨ c = 1)) then 0 else raw.Ur r c
    let Us := fun (r c : Nat) => if raw.refFirst ∧ c = 0 then 0 else raw.Us r c
    let time1 := takeVec kept raw.time1
    let time2 := takeVec kept raw.time2
    let (t1, w1, u1) := avhrrUses raw.refFirst true
    let (t2, w2, u2) := avhrrUses raw.refFirst false
    let (ws, us) ← avhrrMatrices raw.refFirst (takeScan kept raw.uS1) (takeScan kept raw.uI1) (takeScan kept raw.uS2) (takeScan kept raw.uI2) time1 time2
    pure ({ s1 := ⟨getNewName raw.lm.1, takeRows kept raw.H 0 m1, takeRows kept Ur 0 m1, takeRows kept Us 0 m1, t1, w1, u1⟩
            s2 := ⟨getNewName raw.lm.2, takeRows kept raw.H 5 5, takeRows kept Ur 5 5, takeRows kept Us 5 5, t2, w2, u2⟩
            K := takeVec kept raw.K
            Kr := takeVec kept raw.Kr
            Ks := takeVec kept raw.Ks
            time1 := time1
            time2 := time2
            additional := avhrrAdditional vars kept }, ws, us)

/-- One file of the first two kinds. -/
def AvhrrState.writeW (st : AvhrrState α) (ws : List (CSR α)) (us : List (List α)) (m1 m2 : Nat) : Py (Dataset α) := do
  let f ← st.arrays m1 m2
  writeWithMatrices f ws us

/-- One file of the third kind. -/
def AvhrrState.writePlain (st : AvhrrState α) (m1 m2 : Nat) : Py (Dataset α) := do
  let f ← st.arrays m1 m2
  writeInputFile f

/-- L659-908 `main`: the files written, with their paths. -/
def avhrrRun (conv : Option String → List α → Py (List α)) (dir base : String) (lim : Option α) (raw : AvhrrRaw α) : Py (List (String × Dataset α)) := do
  let (band, vars) ← avhrrVariables conv raw
  let mask ← avhrrMask raw vars lim
  let (st, ws, us) ← avhrrPrepare raw (keptRows mask) vars
  let _ ← returnWMatrixVariables ws us
  let m1s : Nat × Nat := if raw.refFirst then (1, 1) else (4, 5)
  let a ← st.writeW ws us m1s.1 4
  let b ← st.writeW ws us m1s.2 5
  let st' : AvhrrState α := { st with s1 := st.s1.noSystematic, s2 := st.s2.noSystematic }
  let c ← st'.writeW ws us m1s.1 4
  let d ← st'.writeW ws us m1s.2 5
  let s1 ← st'.s1.combined ws us
  let s2 ← st'.s2.combined ws us
  let st'' : AvhrrState α := { st' with s1 := s1, s2 := s2 }
  let e ← st''.writePlain m1s.1 4
  let f ← st''.writePlain m1s.2 5
  pure ((avhrrPaths dir base band).zip [a, b, c, d, e, f])

end
end Verif
