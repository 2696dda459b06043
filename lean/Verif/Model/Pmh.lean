import Verif.Model.Writer
import Verif.Model.WGen
import Verif.Model.Paths
import Verif.Model.AvhrrTool
/-
Model of `tools/pmh2fiduceo.py`: match-up files from three text files.

A line of a text file is the list of its words (`line.split()`). `float` and `int` of a word are parameters. Counts are natural numbers. Messages, the creation of directories and the
rounding of the W values to 32 bits are not modelled; files written before an exception is raised are not modelled. The command line (L819-823) calls `main()` without its argument,
so that the script itself always ends with a `TypeError`: what is modelled is `run_conversion`.
-/
set_option autoImplicit false
namespace Verif
variable {α : Type}

/-- `p in s` for strings. -/
def isSub (p : List Char) : List Char → Bool
  | [] => p.isEmpty
  | c :: t => p.isPrefixOf (c :: t) || isSub p t

/-- `"Im" in line`, for a text without blanks: in one of the words. -/
def lineHas (p : String) (line : List String) : Bool := line.any fun w => isSub p.toList w.toList

/-- `float(line)`: one word. -/
def floatLine (parse : String → Py α) : List String → Py α
  | [w] => parse w
  | _ => .error .valueError

/-- L136-151: the state of the loop is (Im, Nm, data). -/
def pamsStep (st : List (List String) × List (List String) × List (List String)) (line : List String) : List (List String) × List (List String) × List (List String) :=
  if lineHas "Im" line then st
  else if lineHas "Nm" line then (st.2.2, st.2.1, [])
  else if lineHas "atrue" line then (st.1, st.2.2, [])
  else (st.1, st.2.1, st.2.2 ++ [line])

/-- L155-158: `zeros((len(l), len(l[0])))` filled row by row; a row longer than the first is an `IndexError`, missing elements stay zero. -/
def trueParameters [Zero α] (parse : String → Py α) (rows : List (List String)) : Py (List (List α)) := do
  let r0 ← pyGet rows 0
  rows.mapM fun row => do
    let vs ← row.mapM parse
    if row.length ≤ r0.length then pure (vs ++ List.replicate (r0.length - row.length) 0) else .error .indexError

/-- L131-159 `open_data_pams`. -/
def openDataPams [Zero α] (parse : String → Py α) (parseInt : String → Py Nat) (lines : List (List String)) : Py (List (List String) × List Nat × List (List α)) := do
  let st := lines.foldl pamsStep ([], [], [])
  let Nm ← st.2.1.mapM fun n => do
    let w ← pyGet n 0
    parseInt w
  let a ← trueParameters parse st.2.2
  pure (st.1, Nm, a)

/-- What `open_data_uncs` returns. -/
structure PmhUncs (α : Type) where
  ref : α
  uR : List α
  uS : List α
  nW : List Nat
  Kr : α
  utype : List Nat

/-- The variables of the loop L176-206; `none` where not yet assigned. -/
structure UncsState (α : Type) where
  ref : Option α
  kind : Option String
  uR : List α
  uS : List α
  nW : List Nat
  Kr : Option α
  utype : List Nat

/-- L186-206: the values of one effect. -/
def uncsEffect [Zero α] (parse : String → Py α) (parseInt : String → Py Nat) (st : UncsState α) (line : List String) : Py (UncsState α) :=
  match st.kind with
  | none => .error .unboundLocalError
  | some k =>
    if k = "R" then do
      let u ← floatLine parse line
      pure { st with uR := st.uR ++ [u], uS := st.uS ++ [0], nW := st.nW ++ [0], utype := st.utype ++ [1] }
    else if k = "RS" then do
      let w0 ← pyGet line 0
      let u ← parse w0
      let w1 ← pyGet line 1
      let s ← parse w1
      pure { st with uR := st.uR ++ [u], uS := st.uS ++ [s], nW := st.nW ++ [0], utype := st.utype ++ [2] }
    else if k = "MA" then do
      let w0 ← pyGet line 0
      let u ← parse w0
      let w1 ← pyGet line 1
      let n ← parseInt w1
      pure { st with uR := st.uR ++ [u], uS := st.uS ++ [0], nW := st.nW ++ [n], utype := st.utype ++ [3] }
    else .error .typeError

/-- L176-206, line `i` of `tot + 1` lines. -/
def uncsStep [Zero α] (parse : String → Py α) (parseInt : String → Py Nat) (tot : Nat) (st : UncsState α) (l : List String × Nat) : Py (UncsState α) :=
  if l.2 = 0 ∨ (l.2 : Int) = tot - 1 then pure st
  else if l.2 = 1 then do
    let u ← floatLine parse l.1
    pure { st with ref := some u }
  else if l.2 = tot then do
    let u ← floatLine parse l.1
    pure { st with Kr := some u }
  else if l.2 % 2 = 0 then do
    let w ← pyGet l.1 2
    pure { st with kind := some (String.ofList w.toList.dropLast) }
  else uncsEffect parse parseInt st l.1

/-- L162-208 `open_data_uncs`. -/
def openDataUncs [Zero α] (parse : String → Py α) (parseInt : String → Py Nat) (lines : List (List String)) : Py (PmhUncs α) := do
  let st ← lines.zipIdx.foldlM (uncsStep parse parseInt (lines.length - 1)) ⟨none, none, [], [], [], none, []⟩
  match st.ref, st.Kr with
  | some r, some k => pure ⟨r, st.uR, st.uS, st.nW, k, st.utype⟩
  | _, _ => .error .unboundLocalError

/-- `full(n, v)` for a number or an array. -/
def npFull (n : Nat) : α ⊕ List α → Py (List α)
  | .inl x => .ok (List.replicate n x)
  | .inr l => if l.length = n then .ok l else match l with
    | [x] => .ok (List.replicate n x)
    | _ => .error .valueError

/-- `H[lo:lo+n, c:c+m]`. -/
def Arr.part (H : Arr α) (lo n c m : Nat) : Arr α := ⟨min n (H.nrows - lo), min m (H.ncols - c), fun r j => H.val (lo + r) (c + j)⟩

section
variable [Field α]

/-- L737-744, L749-756: the arrays of a sensor that is not the reference, `c` being its first column. -/
def pmhSide (H : Arr α) (u : PmhUncs α) (name : String) (lo n c : Nat) : SideArrays α where
  name := name
  X := H.part lo n c u.uR.length
  Ur := ⟨n, u.uR.length, fun _ j => if u.utype.getD j 0 = 1 ∨ u.utype.getD j 0 = 2 then u.uR.getD j 0 else 0⟩
  Us := ⟨n, u.uR.length, fun _ j => u.uS.getD j 0⟩
  utype := u.utype
  wUse := u.utype.map fun t => if t = 3 then 1 else 0
  uUse := u.utype.map fun t => if t = 3 then 1 else 0

/-- L731-735: those of the reference. `Ur1` and `Us1` have one dimension; netCDF4 reshapes them. -/
def pmhRef (H : Arr α) (u : PmhUncs α) (name : String) (lo n : Nat) : SideArrays α where
  name := name
  X := H.part lo n 0 1
  Ur := ⟨n, 1, fun _ _ => u.ref⟩
  Us := ⟨n, 1, fun _ _ => 0⟩
  utype := [1]
  wUse := [0]
  uUse := [0]

/-- L722-760: the arrays of one file. -/
def pmhArrays (H : Arr α) (u : PmhUncs α) (pair : List String) (lo n : Nat) (Kr : List α) : Py (FileArrays α) := do
  let n1 ← pyGet pair 0
  let n2 ← pyGet pair 1
  let times : List α := (List.range n).map fun (i : Nat) => ((lo + i : Nat) : α)
  pure { s1 := if n1 = "0" then pmhRef H u n1 lo n else pmhSide H u n1 lo n 0
         s2 := pmhSide H u n2 lo n u.uR.length
         K := (List.range (min n (H.nrows - lo))).map fun r => H.val (lo + r) (H.ncols - 1)
         Kr := Kr
         Ks := List.replicate n 0
         time1 := times
         time2 := times
         additional := [] }

/-- L720 `"_".join(s) + ".nc"`. -/
def pmhPath (dir : String) (pair : List String) : String := pjoin dir (String.intercalate "_" pair ++ ".nc")

/-- The state of the loop L722-765: rows used, `Kr`, the rows of the last file, files. -/
structure PmhState (α : Type) where
  lo : Nat
  Kr : α ⊕ List α
  last : Option (Nat × Nat)
  disk : List (String × Dataset α)

/-- L722-765, one file. `Kr` is replaced by the array made from it (L759). -/
def pmhStep (H : Arr α) (u : PmhUncs α) (dir : String) (st : PmhState α) (p : List String × Nat) : Py (PmhState α) := do
  let Kr ← npFull p.2 st.Kr
  let f ← pmhArrays H u p.1 st.lo p.2 Kr
  let d ← writeInputFile f
  pure ⟨st.lo + p.2, .inr Kr, some (st.lo, p.2), dictSet st.disk (pmhPath dir p.1) d⟩

/-- L781-792, one file: open it for appending (`IOError` if it does not exist). -/
def pmhAppend (u : PmhUncs α) (dir : String) (v : WVars α) (disk : List (String × Dataset α)) (pair : List String) : Py (List (String × Dataset α)) := do
  let w2 := u.utype.map fun t => if t = 3 then 1 else 0
  let n1 ← pyGet pair 0
  let w1 := if n1 = "0" then [0] else w2
  match disk.find? (fun e => e.1 == pmhPath dir pair) with
  | none => .error .ioError
  | some e => do
    let d ← appendW e.2 v w1 w2 w1 w2
    pure (dictSet disk (pmhPath dir pair) d)

end

section
variable [Field α] [LinearOrder α] [IsStrictOrderedRing α] [FloorRing α]

/-- L768-776: the matrix, made for the times of the last file. -/
def pmhMatrix (u : PmhUncs α) (last : Option (Nat × Nat)) : Py (WVars α) := do
  let uW := ((u.uR.zip u.utype).filter fun p => p.2 == 3).map (·.1)
  let nW := ((u.nW.zip u.utype).filter fun p => p.2 == 3).map (·.1)
  let n0 ← pyGet nW 0
  let u0 ← pyGet uW 0
  if nW.count n0 ≠ nW.length ∧ uW.count u0 ≠ uW.length then .error .valueError
  else match last with
    | none => .error .unboundLocalError
    | some (lo, n) => do
      let (w, v) ← generateRollingAverage ((List.range n).map fun (i : Nat) => ((lo + i : Nat) : α)) 1 (.float u0) none (some n0)
      returnWMatrixVariables [w] [v]

/-- L698-798 `run_conversion` after the three files have been read; `loadtxt` gives a one-dimensional array for a file of one line, which cannot be indexed by row and column (raised at the first file). -/
def runConversion (H : Arr α) (Im : List (List String)) (Nm : List Nat) (u : PmhUncs α) (dir : String) : Py (List (String × Dataset α)) := do
  if H.nrows < 2 then .error .indexError
  else do
    let st ← (Im.zip Nm).foldlM (pmhStep H u dir) ⟨0, .inl u.Kr, none, []⟩
    let v ← pmhMatrix u st.last
    Im.foldlM (pmhAppend u dir v) st.disk

end
end Verif
