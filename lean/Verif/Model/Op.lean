import Verif.Model.Py
import Mathlib.Algebra.Field.Defs
import Mathlib.Data.Nat.Sqrt
/-
Model of the parts of harmonisation_eiv/harmonisation/tools/HarmonisationOp.py that put together separately computed results: Monte Carlo trials
(L480-603) and elements of the parameter covariance matrix (L371-386; the files are written by tools/fullEIVsolver_covariance_analytical.py L77-82).

The helper `get_harm_paths` these functions call is defined nowhere in /repo, so as it stands they end with a `NameError` before doing anything
(see DESIGN section 4).  What is modelled is the computation after the files of each trial have been found.  Arrays are lists; numbers are
elements of a field instead of double-precision floats.
-/
set_option autoImplicit false
namespace Verif

variable {α : Type} [Field α]

/-- Element-wise binary operation on two arrays (numpy `a + b`).  Simplification: arrays of different lengths raise `ValueError`, numpy would
broadcast a single element. -/
def arr2 (f : α → α → α) (a b : List α) : Py (List α) := if a.length = b.length then .ok (List.zipWith f a b) else .error .valueError

/-- One turn of the loop over Monte Carlo trials after the first, HarmonisationOp.py L531-544 (the k and the H residuals are treated alike):
`n` is `n_trial`, the state is the running estimate `k_res_e` and the running `k_res_variance`. -/
def mcStep (n : Nat) (st : List α × List α) (x : List α) : Py (List α × List α) := do
  let mu ← arr2 (fun e x => e + (x - e) / (n : α)) st.1 x
  let d1 ← arr2 (fun e m => ((n : α) - 1) * (e - m) ^ 2) st.1 mu
  let d2 ← arr2 (fun x m => (x - m) ^ 2) x mu
  let v1 ← arr2 (fun v d => ((n : α) - 2) * v + d) st.2 d1
  let v ← arr2 (fun a b => a + b) v1 d2
  pure (mu, v.map (· / ((n : α) - 1)))

/-- The trials after the first, HarmonisationOp.py L521-544; `n` is the number of trials seen. -/
def mcLoop (n : Nat) (st : List α × List α) : List (List α) → Py (List α × List α)
  | [] => .ok st
  | x :: xs => do mcLoop (n + 1) (← mcStep (n + 1) st x) xs

/-- The incremental mean and variance of the residuals of all trials, HarmonisationOp.py L519-544.  Without trials the variance is never
assigned. -/
def mcCombine : List (List α) → Py (List α × List α)
  | [] => .error .unboundLocalError
  | x :: xs => mcLoop 1 (x, x.map fun _ => 0) xs

/-- `numpy.all(row == 0)`. -/
def allZero [DecidableEq α] (row : List α) : Bool := row.all (· == 0)

/-- The row of the array `a` of one trial, HarmonisationOp.py L594-601: zeros for a failed job. -/
def mcRow (n : Nat) : Option (List α) → Py (List α)
  | none => .ok (List.replicate n 0)
  | some p => setSlice (List.replicate n 0) 0 n p

/-- `get_parameters_mc`, HarmonisationOp.py L577-603.  A trial is the parameter array of its output file, `none` when there is no output file.
The first trial decides the number of parameters: opening the missing file of a failed first trial raises. -/
def getParametersMc [DecidableEq α] (trials : List (Option (List α))) : Py (List (List α)) :=
  match trials with
  | [] => .error .indexError
  | none :: _ => .error .runtimeError
  | some p :: _ => do
    let rows ← trials.mapM (mcRow p.length)
    pure (rows.filter fun r => !allZero r)

/-- Column `j` of a two-dimensional array. -/
def colOf (a : List (List α)) (j : Nat) : List α := a.map fun r => r.getD j 0

/-- `numpy.mean` of a non-empty array. -/
def npMean (l : List α) : α := l.sum / (l.length : α)

/-- `numpy.std(a, axis=0)` squared, column `j`, HarmonisationOp.py L506: numpy divides by the number of trials. -/
def mcStdSq (a : List (List α)) (j : Nat) : α := ((colOf a j).map fun x => (x - npMean (colOf a j)) ^ 2).sum / (a.length : α)

/-- `numpy.cov(a, rowvar=0)[i, j]`, HarmonisationOp.py L507: numpy divides by the number of trials less one. -/
def mcCov (a : List (List α)) (i j : Nat) : α :=
  (a.map fun r => (r.getD i 0 - npMean (colOf a i)) * (r.getD j 0 - npMean (colOf a j))).sum / ((a.length : α) - 1)

/-- `file[-k]` of a string, for positive `k`. -/
def charFromEnd (s : List Char) (k : Nat) : Py Char := pyGet s.reverse (k - 1)

/-- `int(c)` of a one-character string. -/
def intOfChar (c : Char) : Py Nat := if c.isDigit then .ok (c.toNat - '0'.toNat) else .error .valueError

/-- `M[i, j] = v` of a two-dimensional array. -/
def setEntry {β : Type} (m : List (List β)) (i j : Nat) (v : β) : Py (List (List β)) :=
  match m[i]? with
  | none => .error .indexError
  | some row => if j < row.length then .ok (m.set i (row.set j v)) else .error .indexError

/-- The body of the loop over files, HarmonisationOp.py L381-382. -/
def placeElement (m : List (List α)) (f : List Char × α) : Py (List (List α)) := do
  let i ← intOfChar (← charFromEnd f.1 8)
  let j ← intOfChar (← charFromEnd f.1 6)
  setEntry m i j f.2

/-- `(M + M.T) / 2` of an n by n array, HarmonisationOp.py L384. -/
def symmetrise (n : Nat) (m : List (List α)) : List (List α) :=
  (List.range n).map fun i => (List.range n).map fun j => ((m.getD i []).getD j 0 + (m.getD j []).getD i 0) / 2

/-- `combine_parameter_covariance_ij`, HarmonisationOp.py L371-386.  The files found by `glob`, in the order found, as path and number stored.
`int(len(filelist)**0.5)` is the integer square root. -/
def combineCovariance (files : List (List Char × α)) : Py (List (List α)) := do
  let n := Nat.sqrt files.length
  let m ← files.foldlM placeElement (List.replicate n (List.replicate n 0))
  pure (symmetrise n m)

/-- The path an element of the covariance matrix is saved to, fullEIVsolver_covariance_analytical.py L80. -/
def elementPath (dir : List Char) (i j : Nat) : List Char :=
  dir ++ "/parameter_covariance_matrix[".toList ++ i.repr.toList ++ ",".toList ++ j.repr.toList ++ "].dat".toList

end Verif
