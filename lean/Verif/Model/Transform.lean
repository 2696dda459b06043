import Verif.Model.Sample
import Mathlib.Algebra.Field.Defs
/-
Model of `core/matchup/matchupProcessing/transform2normind/Transform2NormInd.py` (run, reverse) and of the un-normalisation inside the solver:
`GN_algo.py` `unconvert_Xs` L533-606 and `cython_lib_GN_algo.pyx`.

Numbers are elements of a field (float32 rounding is not modelled).
-/
set_option autoImplicit false
namespace Verif
variable {α δ : Type}

/-- numpy element-wise operation on two one-dimensional arrays, with broadcasting of arrays of length one. -/
def npZip (f : α → α → α) (a b : List α) : Py (List α) :=
  if a.length = b.length then .ok (List.zipWith f a b)
  else match a, b with
    | [x], _ => .ok (b.map (f x))
    | _, [y] => .ok (a.map (fun x => f x y))
    | _, _ => .error .valueError

/-- A matrix store entry: an `Uncertainty` refers to it by number; a slot never filled has no matrix attributes. -/
def getSlot {β : Type} (l : List (Option β)) (i : Nat) : Py β := do
  let o ← pyGet l i
  match o with
  | some m => pure m
  | none => .error .attributeError

/-- scipy `w.dot(v)` for a vector: `ValueError` when the length differs from the number of columns. -/
def csrDot [Field α] (w : CSR α) (v : List α) : Py (List α) :=
  if v.length = w.ncols then .ok ((List.range w.nrows).map fun i => ((w.rowEntries i).map fun e => e.2 * v.getD e.1 0).sum)
  else .error .valueError

/-- L172-176, L184-189: `values[istart_i+col] = y / u_matrix[col]; encountered_cols[col] = True` for each listed column. -/
def assignCols [Field α] (u : List α) (y : α) (cols : List Nat) (st : List α × List Bool) : Py (List α × List Bool) :=
  cols.foldlM (fun st c => do
    let uc ← pyGet u c
    pure (st.1.set c (y / uc), st.2.set c true)) st

/-- L159-192: one row (match-up) of a block with a W matrix; the state is the transformed block and `encountered_cols`.
The code writes into the whole array at `istart_i + col`; here the block is a list of its own, of the length of `u_matrix`, so that a column
beyond it fails in `u_matrix[col]` as in the code. -/
def wRowStep [Field α] (w : CSR α) (u : List α) (st : List α × List Bool) (row : α × Nat) : Py (List α × List Bool) := do
  let p ← pyGet w.indptr row.2
  let q ← pyGet w.indptr (row.2 + 1)
  let cols := slice w.indices p q
  let flags ← cols.mapM (pyGet st.2)
  let num := flags.count false
  if num = cols.length then assignCols u row.1 cols st
  else if 0 < num ∧ num < cols.length then do
    let entries := (cols.zip (slice w.data p q)).zip flags
    let seen := (entries.filter fun e => e.2).map (·.1)
    let fresh := (entries.filter fun e => !e.2).map (·.1)
    let terms ← seen.mapM fun e => do
      let v ← pyGet st.1 e.1
      let uc ← pyGet u e.1
      pure (e.2 * v * uc)
    let average_sofar := terms.sum
    let weight_remaining := (fresh.map (·.2)).sum
    assignCols u ((row.1 - average_sofar) / weight_remaining) (fresh.map (·.1)) st
  else pure st

/-- L148-192: one block with a W matrix. -/
def normRows [Field α] (w : CSR α) (u x : List α) : Py (List α) := do
  let st ← x.zipIdx.foldlM (wRowStep w u) (List.replicate u.length 0, List.replicate w.ncols false)
  pure st.1

/-- L136-192: the transformed data of one block. -/
def normBlock [Field α] (mu : MatchUp α δ) (u : Unc α) (x : List α) : Py (List α) :=
  match u with
  | .independent uR | .systematic uR _ => npZip (· / ·) x uR
  | .structured w_i u_i | .structuredSystematic w_i u_i _ => do
    let w ← getSlot mu.w_matrices w_i
    let u ← getSlot mu.u_matrices u_i
    normRows w u x

/-- L83-92: number of variables of a transformed block. -/
def normSize (mu : MatchUp α δ) (u : Unc α) (n : Nat) : Py Nat :=
  match u with
  | .independent _ | .systematic _ _ => pure n
  | .structured _ u_i | .structuredSystematic _ u_i _ => do
    let u ← getSlot mu.u_matrices u_i
    pure u.length

/-- L95, L239 (and GN_algo.py L560): `max([0] + [uS_i for systematic blocks])`; `uS_i` missing is an `AttributeError`. -/
def numSys (unc : List (UncBlock α)) : Py Nat := do
  let l ← (unc.filter fun u => u.unc.typeID == 2 || u.unc.typeID == 4).mapM fun u => match u.uS_i with
    | some i => (.ok i : Py Nat)
    | none => .error .attributeError
  pure (l.foldl max 0)

/-- `idxs[-1] += n` (L107). -/
def bumpLast (l : List Nat) (n : Nat) : List Nat := l.dropLast ++ (l.getLast?.map (· + n)).toList

/-- The block loop shared by `run` and `reverse`: `out[start_i : start_i + size_i] = data_i`. -/
def writeBlocks (starts sizes : List Nat) (data : List (Py (List α))) (init : List α) : Py (List α) :=
  data.zipIdx.foldlM (fun out di => do
    let a ← pyGet starts di.2
    let n ← pyGet sizes di.2
    let d ← di.1
    setSlice out a (a + n) d) init

/-- L195-199, L281-285: `out[cNm[i]:cNm[i+1]] = ks[cNm[i]:cNm[i+1]] op unck[i].uR` for each sensor pair. -/
def scaleKs [Zero α] (f : α → α → α) (x : Idx) (unck : List (List α)) (ks : List α) : Py (List α) := do
  let n ← pyGet x.cNm (x.cNm.length - 1)
  (List.range x.Im.length).foldlM (fun out i => do
    let a ← pyGet x.cNm i
    let b ← pyGet x.cNm (i + 1)
    let u ← pyGet unck i
    let d ← npZip f (slice ks a b) u
    setSlice out a b d) (List.replicate n 0)

/-- L45-202 `Transform2NormInd.run`. Times and additional values are not copied. -/
def transformRun [Field α] (mu : MatchUp α δ) : Py (MatchUp α δ) := do
  let N_var ← (mu.idx.N_var.zip mu.unc).mapM fun nu => normSize mu nu.2.unc nu.1
  let n_uS ← numSys mu.unc
  let idxs := bumpLast (prefixSums N_var) n_uS
  let x := { mu.idx with N_var := N_var, idx := idxs }
  let n ← pyGet idxs (idxs.length - 1)
  let data := mu.unc.zipIdx.map fun ui => (do
    let istart ← pyGet mu.idx.idx ui.2
    let size ← pyGet mu.idx.N_var ui.2
    normBlock mu ui.1.unc (slice mu.values istart (istart + size)) : Py (List α))
  let values ← writeBlocks idxs N_var data (List.replicate n 0)
  let ks ← scaleKs (· / ·) mu.idx mu.unck mu.ks
  pure { mu with idx := x, values := values, ks := ks, time1 := none, time2 := none, additional_values := none }

/-- L241-278: un-normalisation of one block `v` of a transformed data array `values` with last boundary `last`. -/
def revBlock [Field α] (ws : List (Option (CSR α))) (us : List (Option (List α))) (last n_uS : Nat) (values : List α) (u : UncBlock α) (v : List α) :
    Py (List α) :=
  let sys : Py α := match u.uS_i with
    | some i => pyGetInt values ((last : Int) - n_uS - 1 + i)
    | none => .error .attributeError
  match u.unc with
  | .independent uR => npZip (· * ·) v uR
  | .systematic uR uS => do
    let a ← npZip (· * ·) v uR
    let s ← sys
    npZip (· + ·) a (uS.map (s * ·))
  | .structured w_i u_i => do
    let w ← getSlot ws w_i
    let u ← getSlot us u_i
    let p ← npZip (· * ·) u v
    csrDot w p
  | .structuredSystematic w_i u_i uS => do
    let w ← getSlot ws w_i
    let u ← getSlot us u_i
    let s ← sys
    let p ← npZip (· * ·) v u
    csrDot w (p.map (· + s * uS))

/-- L204-287 `Transform2NormInd.reverse`. -/
def transformReverse [Field α] (nm : MatchUp α δ) : Py (MatchUp α δ) := do
  let n ← pyGet nm.original_idx.idx (nm.original_idx.idx.length - 1)
  let n_uS ← numSys nm.unc
  let last ← pyGet nm.idx.idx (nm.idx.idx.length - 1)
  let data := nm.unc.zipIdx.map fun ui => (do
    let istart_i ← pyGet nm.idx.idx ui.2
    let size_i ← pyGet nm.idx.N_var ui.2
    revBlock nm.w_matrices nm.u_matrices last n_uS nm.values ui.1 (slice nm.values istart_i (istart_i + size_i)) : Py (List α))
  let values ← writeBlocks nm.original_idx.idx nm.original_idx.N_var data (List.replicate n 0)
  let ks ← scaleKs (· * ·) nm.original_idx nm.unck nm.ks
  pure { nm with idx := nm.original_idx, values := values, ks := ks, time1 := none, time2 := none, additional_values := none }

/-- GN_algo.py L577-604 (python `unconvert_Xs`) and cython_lib_GN_algo.pyx L73-99: un-normalisation of one block inside the solver; `v` is
`xyza[ib:ie]`. -/
def unconvBlock [Field α] (ws : List (Option (CSR α))) (us : List (Option (List α))) (last n_uS : Nat) (xyza : List α) (b : UncBlock α) (v : List α) :
    Py (List α) :=
  let sys : Py α := match b.uS_i with
    | some i => pyGetInt xyza ((last : Int) - n_uS - 1 + i)
    | none => .error .attributeError
  match b.unc with
  | .independent uR => npZip (· * ·) v uR
  | .systematic uR uS => do
    let s ← sys
    let a ← npZip (· * ·) v uR
    npZip (· + ·) a (uS.map (s * ·))
  | .structured w_i u_i => do
    let w ← getSlot ws w_i
    let u ← getSlot us u_i
    let p ← npZip (· * ·) u v
    csrDot w p
  | .structuredSystematic w_i u_i uS => do
    let s ← sys
    let w ← getSlot ws w_i
    let u ← getSlot us u_i
    let p ← npZip (· * ·) u v
    csrDot w (p.map (· + s * uS))

/-- GN_algo.py L533-606 `unconvert_Xs` (python): the covariate columns of one sensor in one series, from the solver's array `xyza`; each column
is assigned into a zero array with one row per match-up of the series (broadcast or `ValueError` when the lengths differ). -/
def unconvertXs [Field α] (ws : List (Option (CSR α))) (us : List (Option (List α))) (xyza : List α) (unc : List (UncBlock α)) (x : Idx)
    (n_sensor n_mu : Nat) : Py (List (List α)) := do
  let N_cov ← pyGet x.sensor_ms n_sensor
  let n_uS ← numSys unc
  let rows ← pyGet x.Nm (n_mu - 1)
  (List.range N_cov).mapM fun c => do
    let im ← pyIndex x.blocks (n_sensor, n_mu, c + 1)
    let ib ← pyGet x.idx im
    let n ← pyGet x.N_var im
    let u ← pyGet unc im
    let last ← pyGet x.idx (x.idx.length - 1)
    let col ← unconvBlock ws us last n_uS xyza u (slice xyza ib (ib + n))
    setSlice (List.replicate rows 0) 0 rows col

/-- cython_lib_GN_algo.pyx L9-101 `unconvert_Xs` (compiled variant): the number of rows comes from the original boundaries of the first block. -/
def unconvertXsCython [Field α] (ws : List (Option (CSR α))) (us : List (Option (List α))) (xyza : List α) (unc : List (UncBlock α)) (x : Idx)
    (original_idxs : List Nat) (n_sensor n_mu N_cov : Nat) : Py (List (List α)) := do
  let n_uS ← numSys unc
  let im1 ← pyIndex x.blocks (n_sensor, n_mu, 1)
  let a ← pyGet original_idxs im1
  let b ← pyGet original_idxs (im1 + 1)
  (List.range N_cov).mapM fun c => do
    let im ← pyIndex x.blocks (n_sensor, n_mu, c + 1)
    let ib ← pyGet x.idx im
    let n ← pyGet x.N_var im
    let u ← pyGet unc im
    let last ← pyGet x.idx (x.idx.length - 1)
    let col ← unconvBlock ws us last n_uS xyza u (slice xyza ib (ib + n))
    setSlice (List.replicate (b - a) 0) 0 (b - a) col

end Verif
