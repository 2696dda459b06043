import Verif.Model.WFile
import Verif.Model.Sample
import Mathlib.Algebra.Order.Floor.Ring
import Mathlib.Algebra.Order.Field.Basic
/-
Model of `tools/generate_w_matrices.py` `generate_rolling_average_w_matrix` (L22-130).
-/
set_option autoImplicit false
namespace Verif
variable {α : Type} [Field α] [LinearOrder α] [IsStrictOrderedRing α] [FloorRing α]

/-- The argument `kernel_uncertainty`: a Python `float`, a scalar of another type (`int`, `numpy.float64`), or one row of uncertainties per match-up. -/
inductive KernelUnc (α : Type) where
  | float (u : α)
  | scalar (u : α)
  | rows (r : List (List α))

/-- Python 2 `round(x)`: to the nearest whole number, halves away from zero. -/
def pyRound (x : α) : Int := if 0 ≤ x then ⌊x + 1 / 2⌋ else -⌊-x + 1 / 2⌋

/-- Python 2 `round(x, 2)`. -/
def pyRound2 (x : α) : α := (pyRound (100 * x) : α) / 100

/-- `min(l)` of a list of integers, `ValueError` when empty. -/
def minInt (l : List Int) : Py Int :=
  match l with
  | [] => .error .valueError
  | x :: xs => .ok (xs.foldl min x)

/-- L53-64: the kernel length and weights. `len(kernel_uncertainty[0])` needs an array (`TypeError` for a scalar, `IndexError` without rows);
the `else` branch of L63 cannot be reached. -/
def kernelWeights (ku : KernelUnc α) (weights : Option (List α)) (size : Option Nat) : Py (List α) :=
  match weights, size with
  | some w, _ => .ok w
  | none, some k => .ok (List.replicate k (1 / (k : α)))
  | none, none =>
    match ku with
    | .rows r => do
      let r0 ← pyGet r 0
      pure (List.replicate r0.length (1 / (r0.length : α)))
    | _ => .error .typeError

/-- L77-83, the body of the loop for one match-up after the first: `t - t0` in whole scan lines, passing through a time rounded to 0.01. Division by a zero
scan-line time is an error (for Python floats). -/
def scanlinePos (s t0 t : α) : Py Int :=
  if s = 0 then .error .zeroDivisionError
  else .ok (pyRound (pyRound2 (s * (pyRound ((t - t0) / s) : α)) / s))

/-- L75-85: positions relative to the first match-up. -/
def relativePositions (s : α) : List α → Py (List Int)
  | [] => .ok []
  | t0 :: ts => do
    let r ← ts.mapM (scanlinePos s t0)
    pure (0 :: r)

/-- L88-89: `relative_column_postions - min(relative_column_postions)`. -/
def columnPositions (s : α) (times : List α) : Py (List Nat) := do
  let rel ← relativePositions s times
  let m ← minInt rel
  pure (rel.map fun r => (r - m).toNat)

/-- L98-103 (and L119-121): `out = zeros(n*k); for i: out[i*k:i*k+k] = row_i`. -/
def fillKernel {β : Type} [Zero β] (k : Nat) (rows : List (List β)) : Py (List β) :=
  rows.zipIdx.foldlM (fun out p => setSlice out (p.2 * k) (p.2 * k + k) p.1) (List.replicate (rows.length * k) 0)

/-- L113 `unique(w_matrix.nonzero()[1])`: the columns holding a stored non-zero value, in increasing order. -/
def CSR.usedColumns (w : CSR α) : List Nat :=
  (List.range w.ncols).filter fun c => (w.indices.zip w.data).any fun e => e.1 == c && e.2 != 0

/-- L114, L124 `m[:, cols]` for increasing `cols`: the stored entries in these columns, renumbered. (scipy before 1.3 also drops stored zeros, which does not
change the matrix.) -/
def CSR.selectColumns (w : CSR α) (cols : List Nat) : CSR α :=
  let rows := (List.range w.nrows).map fun i => ((w.rowEntries i).filter fun e => cols.contains e.1).map fun e => (cols.idxOf e.1, e.2)
  { data := rows.flatten.map (·.2), indices := rows.flatten.map (·.1), indptr := prefixSums (rows.map List.length)
    nrows := w.nrows, ncols := cols.length }

/-- L125 `u_matrix.max(axis=0).toarray()[0]`: the largest stored value of each column, compared with zero unless every row has a stored value there.
(scipy first adds up duplicate entries; there are none here.) -/
def CSR.columnMax (w : CSR α) : List α :=
  (List.range w.ncols).map fun c =>
    let vs := ((List.range w.nrows).flatMap w.rowEntries).filterMap fun e => if e.1 = c then some e.2 else none
    match vs with
    | [] => 0
    | v :: vs' => if (v :: vs').length < w.nrows then max (vs'.foldl max v) 0 else vs'.foldl max v

/-- L107-110: the sparse matrix before columns are removed; `max(JA)` of an empty array is a `ValueError`. -/
def rollingCSR (pos : List Nat) (k : Nat) (rows : List (List α)) : Py (CSR α) := do
  let JA ← fillKernel k (pos.map fun p => List.range' p k)
  let WA ← fillKernel k rows
  let m ← pyMax JA
  mkCSR WA JA ((List.range (pos.length + 1)).map (· * k)) pos.length (m + 1)

/-- L22-127 `generate_rolling_average_w_matrix`. `kernel_uncertainty[i]` of a scalar that is not a `float` is a `TypeError`; of an array with too few rows
an `IndexError`. -/
def generateRollingAverage (times : List α) (s : α) (ku : KernelUnc α) (weights : Option (List α)) (size : Option Nat) : Py (CSR α × List α) := do
  let wts ← kernelWeights ku weights size
  let k := wts.length
  let pos ← columnPositions s times
  let w0 ← rollingCSR pos k (pos.map fun _ => wts)
  let cols := w0.usedColumns
  let w := w0.selectColumns cols
  match ku with
  | .float u => pure (w, List.replicate w.ncols (u * 1))
  | .scalar _ => .error .typeError
  | .rows r => do
    let us ← (List.range pos.length).mapM (pyGet r)
    let u0 ← rollingCSR pos k us
    pure (w, (u0.selectColumns cols).columnMax)

end Verif
