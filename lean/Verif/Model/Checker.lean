import Verif.Model.Reader
import Mathlib.Algebra.Field.Defs
import Mathlib.Order.Defs.LinearOrder
/-
Model of `tools/harmonisation_input_checker.py`: the checks on a raw netCDF match-up file, and the view of such a file that the reader takes.

Messages are represented by their kind.  Simplification: a check reads a variable according to the dimensions and the kind of data (integer or real) which the
specification prescribes for it; if the file has other dimensions or another data type, then an error has already been recorded (by
`check_variable_dtype`, `check_variable_dimension`), so the verdict is never acceptance, whatever happens afterwards.
-/
set_option autoImplicit false
namespace Verif
variable {α : Type}

/-- A netCDF variable: its dimension names, its data type and its elements (of real or of integer type; the second index is 0 for one-dimensional
variables). -/
structure RawVar (α : Type) where
  dims : List String
  dtype : String
  num : Nat → Nat → α
  int : Nat → Nat → Int

/-- A netCDF file: dimension sizes, variables and (text) attributes by name. -/
structure RawFile (α : Type) where
  dims : List (String × Nat)
  vars : List (String × RawVar α)
  attrs : List (String × String)

/-- `rootgrp.variables[name]`, if present. -/
def RawFile.var? (f : RawFile α) (name : String) : Option (RawVar α) := (f.vars.find? (fun v => v.1 == name)).map (·.2)

/-- `name in rootgrp.variables.keys()`. -/
def RawFile.has (f : RawFile α) (name : String) : Bool := (f.var? name).isSome

/-- `rootgrp.variables[name]`: `KeyError` when absent. -/
def RawFile.var (f : RawFile α) (name : String) : Py (RawVar α) :=
  match f.var? name with
  | some v => .ok v
  | none => .error .keyError

/-- The size of a dimension, if there is one of that name. -/
def RawFile.size? (f : RawFile α) (name : String) : Option Nat := (f.dims.find? (fun d => d.1 == name)).map (·.2)

/-- `rootgrp.dimensions[name].size`: `KeyError` when absent. -/
def RawFile.dim (f : RawFile α) (name : String) : Py Nat :=
  match f.size? name with
  | some n => .ok n
  | none => .error .keyError

/-- Attribute `name`, if present. -/
def RawFile.attr? (f : RawFile α) (name : String) : Option String := (f.attrs.find? (fun a => a.1 == name)).map (·.2)

/-- Length of a variable along its first dimension (1 for a scalar variable). -/
def RawFile.rows (f : RawFile α) (v : RawVar α) : Nat :=
  match v.dims with
  | d :: _ => (f.size? d).getD 0
  | [] => 1

/-- Length of a variable along its second dimension (1 when there is none). -/
def RawFile.cols (f : RawFile α) (v : RawVar α) : Nat :=
  match v.dims with
  | _ :: d :: _ => (f.size? d).getD 0
  | _ => 1

/-- `variable[:]` of an integer variable with one dimension. -/
def RawFile.ints (f : RawFile α) (v : RawVar α) : List Int := (List.range (f.rows v)).map fun i => v.int i 0

/-- `variable[:]` of a real variable with one dimension. -/
def RawFile.nums (f : RawFile α) (v : RawVar α) : List α := (List.range (f.rows v)).map fun i => v.num i 0

/-- `variable[:].flatten()` of a real variable with one or two dimensions. -/
def RawFile.allNums (f : RawFile α) (v : RawVar α) : List α := (List.range (f.rows v)).flatMap fun i => (List.range (f.cols v)).map fun j => v.num i j

/-- All elements of an integer variable with one or two dimensions. -/
def RawFile.allInts (f : RawFile α) (v : RawVar α) : List Int := (List.range (f.rows v)).flatMap fun i => (List.range (f.cols v)).map fun j => v.int i j

/-- L30-42 `VARIABLE_DATA`: required variables with their dimensions and data types. -/
def variableData : List (String × List String × List String) :=
  [("X1", ["M", "m1"], ["float32", "float64"]), ("X2", ["M", "m2"], ["float32", "float64"]), ("Ur1", ["M", "m1"], ["float32", "float64"]),
   ("Ur2", ["M", "m2"], ["float32", "float64"]), ("Us1", ["M", "m1"], ["float32", "float64"]), ("Us2", ["M", "m2"], ["float32", "float64"]),
   ("K", ["M"], ["float32", "float64"]), ("Kr", ["M"], ["float32", "float64"]), ("Ks", ["M"], ["float32", "float64"]),
   ("time1", ["M"], ["float32", "float64"]), ("time2", ["M"], ["float32", "float64"]), ("uncertainty_type1", ["m1"], ["int32"]),
   ("uncertainty_type2", ["m2"], ["int32"])]

/-- L45-54 `W_VARIABLE_DATA`. -/
def wVariableData : List (String × List String × List String) :=
  [("w_matrix_nnz", ["w_matrix_count"], ["int32"]), ("w_matrix_row", ["w_matrix_count", "w_matrix_row_count"], ["int32"]),
   ("w_matrix_col", ["w_matrix_nnz_sum"], ["int32"]), ("w_matrix_val", ["w_matrix_nnz_sum"], ["float32", "float64"]),
   ("w_matrix_use1", ["m1"], ["int32"]), ("w_matrix_use2", ["m2"], ["int32"]), ("u_matrix_row_count", ["u_matrix_count"], ["int32"]),
   ("u_matrix_val", ["u_matrix_row_count_sum"], ["float32", "float64"]), ("u_matrix_use1", ["m1"], ["int32"]),
   ("u_matrix_use2", ["m2"], ["int32"])]

/-- L57 `ATTRS`. -/
def requiredAttrs : List String := ["sensor_1_name", "sensor_2_name"]

/-- The kinds of message the checker collects. -/
inductive Complaint where
  | missingVariables (names : List String)
  | incompleteW (names : List String)
  | dtype (name : String)
  | dimension (name : String)
  | missingAttribute (name : String)
  | sameSensor
  | wCount | uCount | rowCount | nnzSum | uSum
  | negative (name : String)
  | zeroK
  | wNumbering | uNumbering | wuMismatch
  | wuWidth (w : Nat)
  | uNotPositive
  | negativeIndex (name : String)
  | typeMismatch (side col : Nat)
  | notOneForm (side col : Nat)
  deriving DecidableEq, Repr

/-- `set(names).issubset(rootgrp.variables.keys())`. -/
def RawFile.hasAll (f : RawFile α) (names : List String) : Bool := names.all f.has

/-- L60-103 `check_variable_included`. Both lists of L95 are in the order of the same dictionary, so they are equal when everything is missing. -/
def checkIncluded (f : RawFile α) : List Complaint :=
  let missing := (variableData.map (·.1)).filter fun n => !f.has n
  let missingW := (wVariableData.map (·.1)).filter fun n => !f.has n
  (if missing ≠ [] then [.missingVariables missing] else []) ++
  (if missingW ≠ [] ∧ missingW ≠ wVariableData.map (·.1) then [.incompleteW missingW] else [])

/-- The specification entry of a variable: `VARIABLE_DATA` first, then `W_VARIABLE_DATA` (L129-141, L171-185). -/
def specOf (name : String) : Option (List String × List String) :=
  match variableData.find? (fun e => e.1 == name) with
  | some e => some e.2
  | none => (wVariableData.find? (fun e => e.1 == name)).map (·.2)

/-- L106-145 `check_variable_dimension`. -/
def checkDimension (f : RawFile α) : List Complaint :=
  f.vars.flatMap fun v => match specOf v.1 with
    | some e => if e.1 ≠ [] ∧ v.2.dims ≠ e.1 then [.dimension v.1] else []
    | none => []

/-- L148-189 `check_variable_dtype`. -/
def checkDtype (f : RawFile α) : List Complaint :=
  f.vars.flatMap fun v => match specOf v.1 with
    | some e => if e.2 ≠ [] ∧ v.2.dtype ∉ e.2 then [.dtype v.1] else []
    | none => []

/-- L192-222 `check_attributes`. -/
def checkAttributes (f : RawFile α) : List Complaint :=
  (requiredAttrs.filter fun a => (f.attr? a).isNone).map Complaint.missingAttribute ++
  match f.attr? "sensor_1_name", f.attr? "sensor_2_name" with
  | some a, some b => if a = b then [.sameSensor] else []
  | _, _ => []

/-- Python's `max` of a list of integers: `ValueError` when empty. -/
def maxInt (l : List Int) : Py Int :=
  match l with
  | [] => .error .valueError
  | x :: xs => .ok (xs.foldl max x)

/-- `[e] if c else []`. -/
def complainIf (c : Bool) (e : Complaint) : List Complaint := if c then [e] else []

/-- L225-293 `check_w_matrix_variable_dimensions`. -/
def checkWDims (f : RawFile α) : Py (List Complaint) :=
  if f.hasAll (wVariableData.map (·.1)) then do
    let nw ← f.dim "w_matrix_count"
    let w1 ← f.var "w_matrix_use1"
    let w2 ← f.var "w_matrix_use2"
    let a1 ← maxInt (f.ints w1)
    let a2 ← maxInt (f.ints w2)
    let nu ← f.dim "u_matrix_count"
    let u1 ← f.var "u_matrix_use1"
    let u2 ← f.var "u_matrix_use2"
    let b1 ← maxInt (f.ints u1)
    let b2 ← maxInt (f.ints u2)
    let rows ← f.dim "w_matrix_row_count"
    let M ← f.dim "M"
    let nnzs ← f.dim "w_matrix_nnz_sum"
    let nnz ← f.var "w_matrix_nnz"
    let us ← f.dim "u_matrix_row_count_sum"
    let uc ← f.var "u_matrix_row_count"
    pure (complainIf (decide ((nw : Int) ≠ max a1 a2)) .wCount ++ complainIf (decide ((nu : Int) ≠ max b1 b2)) .uCount ++
      complainIf (decide (rows ≠ M + 1)) .rowCount ++ complainIf (decide ((nnzs : Int) ≠ (f.ints nnz).sum)) .nnzSum ++
      complainIf (decide ((us : Int) ≠ (f.ints uc).sum)) .uSum)
  else .ok []

/-- L310-319: the checks on `Kr` and `Ks`. -/
def checkK [Field α] [LinearOrder α] (f : RawFile α) : List Complaint :=
  match f.var? "Kr", f.var? "Ks" with
  | some kr, some ks =>
    complainIf (!((f.allNums kr).all fun x => decide (0 ≤ x))) (.negative "Kr") ++
    complainIf (!((f.allNums ks).all fun x => decide (0 ≤ x))) (.negative "Ks") ++
    complainIf (!((List.zipWith (fun s r => s ^ 2 + r ^ 2) (f.allNums ks) (f.allNums kr)).all fun x => decide (0 < x))) .zeroK
  | _, _ => []

/-- L296-331 `check_variable_values`. (`Ur2` is tested twice and `Us2` not at all, L323.) -/
def checkValues [Field α] [LinearOrder α] (f : RawFile α) : List Complaint :=
  checkK f ++
  if f.hasAll ["Ur1", "Ur2", "Us1", "Ur2"] then
    ["Ur1", "Ur2", "Us1", "Ur2"].flatMap fun n => match f.var? n with
      | some v => complainIf (!((f.allNums v).all fun x => decide (0 ≤ x))) (.negative n)
      | none => []
  else []

/-- Python's `l[a:b]` with bounds of any sign. -/
def sliceInt {β : Type} (l : List β) (a b : Int) : List β :=
  let fix := fun (i : Int) => (if i < 0 then i + l.length else i).toNat
  slice l (fix a) (fix b)

/-- Python's `l[i]` with an index of any sign: `IndexError` outside `-len .. len-1`. -/
def getInt {β : Type} (l : List β) (i : Int) : Py β :=
  if 0 ≤ i then pyGet l i.toNat
  else if 0 ≤ i + l.length then pyGet l (i + l.length).toNat
  else .error .indexError

/-- `set(l) == set(r)`. -/
def sameSet (l r : List Int) : Bool := (l.all fun x => r.contains x) && (r.all fun x => l.contains x)

/-- `range(1, n)`. -/
def rangeFrom1 (n : Int) : List Int := (List.range (n - 1).toNat).map fun (i : Nat) => (i : Int) + 1

/-- `where(l != 0)[0]`. -/
def whereNonzero (l : List Int) : List Nat := (l.zipIdx.filter fun x => x.1 ≠ 0).map (·.2)

/-- Loop body L377-390 over the W matrices: the state is `istart` and the messages. (`iend` equals `istart` at the start of each turn.) -/
def widthStep (wuse uuse wcol ucount : List Int) (st : Int × List Complaint) (nnz : Int × Nat) : Py (Int × List Complaint) := do
  let iend := st.1 + nnz.1
  let mx ← maxInt (sliceInt wcol st.1 iend)
  let ius := ((wuse.zip uuse).filter fun p => p.1 = (nnz.2 : Int) + 1).map fun p => p.2 - 1
  let errs ← ius.mapM fun i => do
    let r ← getInt ucount i
    pure (complainIf (decide (r ≠ mx + 1)) (.wuWidth (nnz.2 + 1)))
  pure (iend, st.2 ++ errs.flatten)

/-- L334-409 `check_w_variable_values`. `max` over the combined use list: `ValueError` when there are no columns at all. -/
def checkWValues [Field α] [LinearOrder α] (f : RawFile α) : Py (List Complaint) :=
  if f.hasAll (wVariableData.map (·.1)) then do
    let w1 ← f.var "w_matrix_use1"
    let w2 ← f.var "w_matrix_use2"
    let u1 ← f.var "u_matrix_use1"
    let u2 ← f.var "u_matrix_use2"
    let wuse := f.ints w1 ++ f.ints w2
    let uuse := f.ints u1 ++ f.ints u2
    let mw ← maxInt (wuse.map (· + 1))
    let mu ← maxInt (uuse.map (· + 1))
    let nnz ← f.var "w_matrix_nnz"
    let row ← f.var "w_matrix_row"
    let col ← f.var "w_matrix_col"
    let uc ← f.var "u_matrix_row_count"
    let st ← (f.ints nnz).zipIdx.foldlM (widthStep wuse uuse (f.ints col) (f.ints uc)) (0, [])
    let uv ← f.var "u_matrix_val"
    pure (complainIf (!sameSet (wuse.filter (· ≠ 0)) (rangeFrom1 mw)) .wNumbering ++
      complainIf (!sameSet (uuse.filter (· ≠ 0)) (rangeFrom1 mu)) .uNumbering ++
      complainIf (decide (whereNonzero wuse ≠ whereNonzero uuse)) .wuMismatch ++ st.2 ++
      complainIf (!((f.nums uv).all fun x => decide (0 < x))) .uNotPositive ++
      ([("w_matrix_nnz", nnz), ("w_matrix_row", row), ("w_matrix_col", col), ("u_matrix_row_count", uc)].flatMap fun v =>
        complainIf (!((f.allInts v.2).all fun x => decide (0 ≤ x))) (.negativeIndex v.1)))
  else .ok []

/-- One turn of the loops L441-493 / L499-553 for column `c` of a side: the state is whether `uncertainty_str` has been assigned in this or an earlier turn
(the test for type 4 is misspelt as 3, L448, so type 4 assigns nothing) and the messages; an unassigned `uncertainty_str` in a message is an
`UnboundLocalError`. -/
def assignStep [Field α] [LinearOrder α] (side M : Nat) (ty w : Nat → Int) (Ur Us : Nat → Nat → α) (st : Bool × List Complaint) (c : Nat) :
    Py (Bool × List Complaint) :=
  let bound := st.1 || decide (ty c ≠ 4)
  let urPos := (column M Ur c).all fun x => decide (0 < x)
  let usZero := (column M Us c).all fun x => decide (x = 0)
  let usPos := (column M Us c).all fun x => decide (0 < x)
  let rand := urPos && usZero
  let randsys := urPos && usPos
  let ww := decide (0 < w c) && usZero
  let wsys := decide (0 < w c) && usPos
  let matched := (decide (ty c = 1) && rand) || (decide (ty c = 2) && randsys) || (decide (ty c = 3) && ww) || (decide (ty c = 4) && wsys)
  let one := (rand && !randsys && !ww && !wsys) || (randsys && !rand && !ww && !wsys) || (ww && !rand && !randsys && !wsys) || (wsys && !rand && !randsys && !ww)
  if (!matched || !one) && !bound then .error .unboundLocalError
  else .ok (bound, st.2 ++ complainIf (!matched) (.typeMismatch side c) ++ complainIf (!one) (.notOneForm side c))

/-- L420-421 the variables which `check_uncertainty_assignment` needs. -/
def assignmentNames : List String := ["X1", "X2", "Ur1", "Ur2", "Us1", "Us2", "uncertainty_type1", "uncertainty_type2"]

/-- `w_matrix_usej`, or zeros when there is no such variable (L428-434). -/
def RawFile.useOrZero (f : RawFile α) (name : String) : Nat → Int :=
  match f.var? name with
  | some v => fun c => v.int c 0
  | none => fun _ => 0

/-- L412-574 `check_uncertainty_assignment`. -/
def checkAssignment [Field α] [LinearOrder α] (f : RawFile α) : Py (List Complaint) :=
  if f.hasAll assignmentNames then do
    let m1 ← f.dim "m1"
    let m2 ← f.dim "m2"
    let t1 ← f.var "uncertainty_type1"
    let t2 ← f.var "uncertainty_type2"
    let ur1 ← f.var "Ur1"
    let us1 ← f.var "Us1"
    let st ← (List.range m1).foldlM (assignStep 1 (f.rows ur1) (fun c => t1.int c 0) (f.useOrZero "w_matrix_use1") ur1.num us1.num) (false, [])
    let ur2 ← f.var "Ur2"
    let us2 ← f.var "Us2"
    let st ← (List.range m2).foldlM (assignStep 2 (f.rows ur2) (fun c => t2.int c 0) (f.useOrZero "w_matrix_use2") ur2.num us2.num) st
    pure st.2
  else .ok []

/-- L577-611 `main`: all messages, in order. -/
def checkFile [Field α] [LinearOrder α] (f : RawFile α) : Py (List Complaint) := do
  let e1 := checkIncluded f ++ checkDtype f ++ checkDimension f ++ checkAttributes f
  let e2 ← checkWDims f
  let e3 := checkValues f
  let e4 ← checkWValues f
  let e5 ← checkAssignment f
  pure (e1 ++ e2 ++ e3 ++ e4 ++ e5)

/-- L611 `main` returns whether errors were found (the exit status of the program). -/
def checkMain [Field α] [LinearOrder α] (f : RawFile α) : Py Bool := do
  let e ← checkFile f
  pure (decide (0 < e.length))

/-! ### The file as the reader sees it -/

/-- Elements of an optional real variable (`z` when absent). -/
def RawFile.numOf (f : RawFile α) (z : α) (name : String) : Nat → Nat → α :=
  match f.var? name with
  | some v => v.num
  | none => fun _ _ => z

/-- Elements of an optional integer variable, as a natural number (0 when absent). -/
def RawFile.natOf (f : RawFile α) (name : String) : Nat → Nat → Nat :=
  match f.var? name with
  | some v => fun i j => (v.int i j).toNat
  | none => fun _ _ => 0

/-- One side of the file (MatchUpReader.py L229-240, L287-392): `j` is "1" or "2". -/
def RawFile.side (f : RawFile α) (z : α) (j : String) : Side α where
  name := (f.attr? ("sensor_" ++ j ++ "_name")).getD ""
  m := (f.size? ("m" ++ j)).getD 0
  X := f.numOf z ("X" ++ j)
  Ur := f.numOf z ("Ur" ++ j)
  Us := f.numOf z ("Us" ++ j)
  utype := fun c => f.natOf ("uncertainty_type" ++ j) c 0
  wUse := fun c => f.natOf ("w_matrix_use" ++ j) c 0
  uUse := fun c => f.natOf ("u_matrix_use" ++ j) c 0

/-- The file as an open match-up dataset (MatchUpReader.py L394-459 for the W/u variables; L336-337 for the use variables). -/
def RawFile.dataset [Zero α] (f : RawFile α) : Dataset α where
  M := (f.size? "M").getD 0
  s1 := f.side 0 "1"
  s2 := f.side 0 "2"
  K := fun i => f.numOf 0 "K" i 0
  Kr := fun i => f.numOf 0 "Kr" i 0
  Ks := fun i => f.numOf 0 "Ks" i 0
  time1 := fun i => f.numOf 0 "time1" i 0
  time2 := fun i => f.numOf 0 "time2" i 0
  hasUse := f.hasAll ["w_matrix_use1", "w_matrix_use2", "u_matrix_use1", "u_matrix_use2"]
  vars := f.vars.map fun v => (v.1, { dims := v.2.dims, data := f.nums v.2 })
  wNnz := (List.range ((f.size? "w_matrix_count").getD 0)).map fun i => f.natOf "w_matrix_nnz" i 0
  wVal := (List.range ((f.size? "w_matrix_nnz_sum").getD 0)).map fun i => f.numOf 0 "w_matrix_val" i 0
  wCol := (List.range ((f.size? "w_matrix_nnz_sum").getD 0)).map fun i => f.natOf "w_matrix_col" i 0
  wRow := (List.range ((f.size? "w_matrix_count").getD 0)).map fun i =>
    (List.range ((f.size? "w_matrix_row_count").getD 0)).map fun j => f.natOf "w_matrix_row" i j
  uCount := (List.range ((f.size? "u_matrix_count").getD 0)).map fun i => f.natOf "u_matrix_row_count" i 0
  uVal := (List.range ((f.size? "u_matrix_row_count_sum").getD 0)).map fun i => f.numOf 0 "u_matrix_val" i 0

end Verif
