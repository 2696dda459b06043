import Verif.Model.Measurand
import Mathlib.Algebra.Order.Group.Abs
/-
Model of `harmonisationProcessing/harmonisation_eiv/GN_algo.py` (class `GNAlgo`): residuals (`calc_f`), products with the preconditioned Jacobian
and its transpose (`calc_prod_JPx`, `calc_Px`), Hessian products (`calc_Hx`), parameter covariance, the Gauss-Newton loop (`run`), and saving /
restoring (`save`, `open`).

The numbers are elements of a field; float32 rounding is not modelled.  The linear solvers (LSMR for the step, MINRES for the covariance) are
parameters here.
-/
set_option autoImplicit false
namespace Verif
variable {α δ : Type}

/-- The solver object: match-up data in normalised form, current estimates (variables, then parameters), preconditioner (rows). -/
structure GN (α δ : Type) where
  hd : Evaluable α δ
  xyza : List α
  S : List (List α)

/-! ### numpy linear algebra -/

/-- `dot(a, b)` of two vectors: `ValueError` when the lengths differ. -/
def npDot [Field α] (a b : List α) : Py α :=
  if a.length = b.length then .ok (List.zipWith (· * ·) a b).sum else .error .valueError

/-- `dot(S, v)` for a matrix given by its rows. -/
def matVec [Field α] (S : List (List α)) (v : List α) : Py (List α) := S.mapM fun r => npDot r v

/-- `dot(S.T, v)` for a square matrix with as many columns as rows. -/
def matTVec [Field α] (S : List (List α)) (v : List α) : Py (List α) :=
  if S.length = v.length then .ok ((List.range S.length).map fun j => (List.zipWith (fun (r : List α) y => r.getD j 0 * y) S v).sum)
  else .error .valueError

/-- scipy `w.T.dot(v)`. -/
def csrTDot [Field α] (w : CSR α) (v : List α) : Py (List α) :=
  if v.length = w.nrows then .ok ((List.range w.ncols).map fun c =>
    ((List.range w.nrows).map fun i => (((w.rowEntries i).filter fun e => e.1 == c).map fun e => e.2 * v.getD i 0).sum).sum)
  else .error .valueError

/-- `out[a:b] = out[a:b] + v`. -/
def addSlice [Field α] (out : List α) (a b : Nat) (v : List α) : Py (List α) := do
  let n ← npZip (· + ·) (slice out a b) v
  setSlice out a b n

/-- `out[i] = out[i] + v` for an integer position (negative positions count from the end). -/
def addAt [Field α] (out : List α) (i : Int) (v : α) : Py (List α) := do
  let cur ← pyGetInt out i
  pure (out.set (if i < 0 then (out.length + i).toNat else i.toNat) (cur + v))

/-- `out[idxs] = out[idxs] + v` for a list of distinct positions. -/
def addAtAll [Field α] (out : List α) (idxs : List Nat) (v : List α) : Py (List α) :=
  (idxs.zip v).foldlM (fun out iv => addAt out (iv.1 : Int) iv.2) out

/-- An optional entry of a dictionary: `KeyError` when absent. -/
def needKey {β : Type} : Option β → Py β
  | some x => .ok x
  | none => .error .keyError

/-- `l[-1]`. -/
def pyLast {β : Type} (l : List β) : Py β := pyGet l (l.length - 1)

/-! ### Preconditioner -/

/-- L846-897 `calc_Px`. -/
def GN.calcPx [Field α] (g : GN α δ) (transpose : Bool) (x : List α) : Py (List α) := do
  let N_var ← pyLast g.hd.mu.idx.idx
  let tail := slice x N_var (N_var + g.hd.a.length)
  let t ← if transpose then matTVec g.S tail else matVec g.S tail
  pure (slice x 0 N_var ++ t)

/-! ### Measurand and derivatives at the current estimate -/

/-- `xyza[-k:]` (for `k = 0` this is the whole array). -/
def lastN (l : List α) (k : Nat) : List α := if k = 0 then l else l.drop (l.length - k)

/-- L441-531 `calc_R`. -/
def GN.calcR [Field α] (g : GN α δ) (xt al : Option (List α)) (t : Option (List δ)) (n_sensor n_mu : Nat) :
    Py (List α × Option (List (List α))) := do
  let x := g.hd.mu.idx
  let name ← pyGet x.sensors n_sensor
  let c ← pickLabelled x.constant_sensor g.hd.constant name
  let labels ← needKey x.parameter_sensor
  let a ← pickLabelled x.parameter_sensor (lastN g.xyza labels.length) name
  let X ← unconvertXs g.hd.mu.w_matrices g.hd.mu.u_matrices g.xyza g.hd.mu.unc x n_sensor n_mu
  let f ← pyGet g.hd.sensor_model n_sensor
  f X a c xt al t

/-! ### Products with the Jacobian -/

/-- Quantities of `calc_prod_JPx` fixed during one call (L672-683). -/
structure ProdCtx where
  N_var : Nat
  N_cov : Nat
  n_uS : Nat

/-- The random term (L748-751, L773-776, L786, L793): `out[dst] = out[dst] + pre * x[src] * uR / uK`. -/
def randTerm [Field α] (x out pre uR uK : List α) (src dst : Nat × Nat) : Py (List α) := do
  let v ← npZip (· * ·) pre (slice x src.1 src.2)
  let v ← npZip (· * ·) v uR
  let v ← npZip (· / ·) v uK
  addSlice out dst.1 dst.2 v

/-- L799-802, L815-816, L822-823: the random part of a structured block. -/
def wTerm [Field α] (transpose : Bool) (x : List α) (s : α) (JB JRc uK : List α) (rows cols : Nat × Nat) (w : CSR α) (u out : List α) :
    Py (List α) :=
  if transpose then do
    let v ← npZip (· * ·) JB JRc
    let v ← npZip (· * ·) v (slice x rows.1 rows.2)
    let v ← npZip (· / ·) v uK
    let q ← csrTDot w v
    let v ← npZip (· * ·) (u.map (s * ·)) q
    addSlice out cols.1 cols.2 v
  else do
    let pre ← npZip (· * ·) (JB.map (s * ·)) JRc
    let p ← npZip (· * ·) u (slice x cols.1 cols.2)
    let q ← csrDot w p
    let v ← npZip (· * ·) pre q
    let v ← npZip (· / ·) v uK
    addSlice out rows.1 rows.2 v

/-- L757-827: the terms of one covariate; `JRc` is `JR[:, n_cov-1]`, `rows` the rows of the series, `s` is -1 or 1. -/
def GN.covTerm [Field α] (g : GN α δ) (transpose : Bool) (ctx : ProdCtx) (x : List α) (s : α) (JB uK : List α) (rows : Nat × Nat)
    (n_sensor n_mu : Nat) (JR : List (List α)) (out : List α) (c : Nat) : Py (List α) := do
  let im ← pyIndex g.hd.mu.idx.blocks (n_sensor, n_mu, c + 1)
  let ib ← pyGet g.hd.mu.idx.idx im
  let n ← pyGet g.hd.mu.idx.N_var im
  let u ← pyGet g.hd.mu.unc im
  let cols := (ib, ib + n)
  let isys : Py Int := match u.uS_i with
    | some i => .ok ((ctx.N_var : Int) - ctx.n_uS - 1 + i)
    | none => .error .attributeError
  match u.unc with
  | .independent uR => do
    let JRc ← pyGet JR c
    let pre ← npZip (· * ·) (JB.map (s * ·)) JRc
    if transpose then randTerm x out pre uR uK rows cols else randTerm x out pre uR uK cols rows
  | .systematic uR uS => do
    let k ← isys
    let JRc ← pyGet JR c
    let pre ← npZip (· * ·) (JB.map (s * ·)) JRc
    let jj ← npZip (· * ·) JB JRc
    if transpose then do
      let out ← randTerm x out pre uR uK rows cols
      let v ← npZip (· * ·) jj uS
      let v ← npZip (· / ·) v uK
      let d ← npDot v (slice x rows.1 rows.2)
      addAt out k (s * d)
    else do
      let out ← randTerm x out pre uR uK cols rows
      let xs ← pyGetInt x k
      let v ← npZip (· * ·) ((jj.map (s * ·)).map (· * xs)) uS
      let v ← npZip (· / ·) v uK
      addSlice out rows.1 rows.2 v
  | .structured w_i u_i => do
    let w ← getSlot g.hd.mu.w_matrices w_i
    let u ← getSlot g.hd.mu.u_matrices u_i
    let JRc ← pyGet JR c
    wTerm transpose x s JB JRc uK rows cols w u out
  | .structuredSystematic w_i u_i uS => do
    let k ← isys
    let w ← getSlot g.hd.mu.w_matrices w_i
    let u ← getSlot g.hd.mu.u_matrices u_i
    let us := u.map fun _ => uS * 1
    let JRc ← pyGet JR c
    let out ← wTerm transpose x s JB JRc uK rows cols w u out
    let jj ← npZip (· * ·) JB JRc
    if transpose then do
      let q ← csrDot w us
      let v ← npZip (· * ·) jj q
      let v ← npZip (· / ·) v uK
      let d ← npDot v (slice x rows.1 rows.2)
      addAt out k (s * d)
    else do
      let xs ← pyGetInt x k
      let q ← csrDot w (us.map (· * xs))
      let v ← npZip (· * ·) (jj.map (s * ·)) q
      let v ← npZip (· / ·) v uK
      addSlice out rows.1 rows.2 v

/-- L830 `i_sensor_p`: positions in `x` of the parameters of one sensor. -/
def paramPositions (labels : List String) (N_var : Nat) (name : String) : List Nat :=
  (labels.zipIdx.filter fun p => p.1 == name).map fun p => N_var + p.2

/-- `outer(v, ones(P)) * JR[:, N_cov:N_cov+P]` (L835, L838): a single column is broadcast, any other number of columns than `P` is a `ValueError`. -/
def paramCols [Field α] (v : List α) (JR : List (List α)) (N_cov P : Nat) : Py (List (List α)) := do
  let q := slice JR N_cov (N_cov + P)
  let cols ← if q.length = P then (.ok q : Py _) else match q with
    | [c] => .ok (List.replicate P c)
    | _ => .error .valueError
  cols.mapM fun c => npZip (· * ·) v c

/-- `dot(A, v)` for a matrix given by its columns (all of the same length). -/
def colsDot [Field α] (A : List (List α)) (v : List α) : List α :=
  (List.range (A.headD []).length).map fun r => (List.zipWith (fun c y => c.getD r 0 * y) A v).sum

/-- L829-838: the parameter terms of one sensor. An empty position array has a floating-point type and cannot index (`IndexError`). -/
def GN.paramTerm [Field α] (g : GN α δ) (transpose : Bool) (ctx : ProdCtx) (x : List α) (s : α) (JB uK : List α) (rows : Nat × Nat)
    (name : String) (JR : List (List α)) (out : List α) : Py (List α) := do
  let labels ← needKey g.hd.mu.idx.parameter_sensor
  let pos := paramPositions labels ctx.N_var name
  if pos = [] then .error .indexError
  else if transpose then do
    let A ← paramCols JB JR ctx.N_cov pos.length
    let y ← npZip (· / ·) (slice x rows.1 rows.2) uK
    let d ← A.mapM fun c => npDot c y
    addAtAll out pos (d.map (s * ·))
  else do
    let w ← npZip (· / ·) JB uK
    let A ← paramCols w JR ctx.N_cov pos.length
    let xs ← pos.mapM (pyGet x)
    addSlice out rows.1 rows.2 ((colsDot A xs).map (s * ·))

/-- L739-751: the terms of a reference sensor (no derivatives): only its first block, only the independent part. -/
def GN.refTerm [Field α] (g : GN α δ) (transpose : Bool) (x : List α) (s : α) (JB uK : List α) (rows : Nat × Nat) (n_sensor n_mu : Nat)
    (out : List α) : Py (List α) := do
  let im ← pyIndex (g.hd.mu.idx.n_sensor.zip g.hd.mu.idx.n_mu) (n_sensor, n_mu)
  let ib ← pyGet g.hd.mu.idx.idx im
  let n ← pyGet g.hd.mu.idx.N_var im
  let u ← pyGet g.hd.mu.unc im
  let uR ← match u.unc with
    | .independent uR | .systematic uR _ => (.ok uR : Py _)
    | _ => .error .attributeError
  if transpose then randTerm x out (JB.map (s * ·)) uR uK rows (ib, ib + n)
  else randTerm x out (JB.map (s * ·)) uR uK (ib, ib + n) rows

/-- L717-838: one sensor of one series. -/
def GN.prodSide [Field α] (g : GN α δ) (transpose : Bool) (ctx : ProdCtx) (x : List α) (rows : Nat × Nat) (uK : List α) (n_mu : Nat)
    (s : α) (n_sensor : Nat) (out : List α) : Py (List α) := do
  let name ← pyGet g.hd.mu.idx.sensors n_sensor
  let xt ← g.hd.mu.getSensorAcrossTrackIndex n_mu name
  let al ← g.hd.mu.getSensorAlongTrackIndex n_mu name
  let t ← g.hd.mu.getSensorTime n_mu name
  let R ← g.calcR xt al t n_sensor n_mu
  let B ← pyGet g.hd.adjustment_model n_sensor
  let JB ← B R.1
  match R.2 with
  | none => g.refTerm transpose x s JB.2 uK rows n_sensor n_mu out
  | some JR => do
    let out ← (List.range ctx.N_cov).foldlM (g.covTerm transpose ctx x s JB.2 uK rows n_sensor n_mu JR) out
    g.paramTerm transpose ctx x s JB.2 uK rows name JR out

/-- L701-838: one series: first sensor with factor -1, second with factor 1. -/
def GN.prodSeries [Field α] (g : GN α δ) (transpose : Bool) (ctx : ProdCtx) (x : List α) (out : List α) (pi : (Nat × Nat) × Nat) :
    Py (List α) := do
  let lo ← pyGet g.hd.mu.idx.cNm pi.2
  let hi ← pyGet g.hd.mu.idx.cNm (pi.2 + 1)
  let uK ← pyGet g.hd.mu.unck pi.2
  let rows := (ctx.N_var + lo, ctx.N_var + hi)
  let out ← g.prodSide transpose ctx x rows uK (pi.2 + 1) (-1) pi.1.1 out
  g.prodSide transpose ctx x rows uK (pi.2 + 1) 1 pi.1.2 out

/-- L672-683: totals used by `calc_prod_JPx`. -/
def GN.prodCtx (g : GN α δ) : Py ProdCtx := do
  let N_var ← pyLast g.hd.mu.idx.idx
  let _ ← needKey g.hd.mu.idx.parameter_sensor
  let N_cov ← pyLast g.hd.mu.idx.n_cov
  let n_uS ← numSys g.hd.mu.unc
  pure { N_var := N_var, N_cov := N_cov, n_uS := n_uS }

/-- L608-844 `calc_prod_JPx`. -/
def GN.prod [Field α] (g : GN α δ) (transpose : Bool) (x : List α) : Py (List α) := do
  let N_mu ← pyLast g.hd.mu.idx.cNm
  let ctx ← g.prodCtx
  let init := List.replicate (ctx.N_var + if transpose then g.hd.a.length else N_mu) 0
  let x ← if transpose then (.ok x : Py _) else g.calcPx false x
  let out ← setSlice init 0 ctx.N_var (slice x 0 ctx.N_var)
  let out ← g.hd.mu.idx.Im.zipIdx.foldlM (g.prodSeries transpose ctx x) out
  if transpose then g.calcPx true out else pure out

/-- L405-439 `get_JPx`, `get_JPTx`. -/
def GN.getJPx [Field α] (g : GN α δ) (x : List α) : Py (List α) := g.prod false x
def GN.getJPTx [Field α] (g : GN α δ) (x : List α) : Py (List α) := g.prod true x

/-- L954-970 `calc_Hx`. -/
def GN.calcHx [Field α] (g : GN α δ) (x : List α) : Py (List α) := do
  let y ← g.prod false x
  g.prod true y

/-! ### Residuals -/

/-- L378-391, L299-309: a new `MatchUp` object sharing the structure and uncertainties of `mu`, without track indices, times, additional data. -/
def MatchUp.bare (mu : MatchUp α δ) (values ks : List α) : MatchUp α δ :=
  { mu with
    values := values, ks := ks, time1 := none, time2 := none, across_track_index1 := none, across_track_index2 := none
    along_track_index1 := none, along_track_index2 := none, additional_values := none }

/-- L378-392: the match-up object holding the current estimate: new, so without track indices and times. -/
def GN.estimate [Zero α] (g : GN α δ) (xyza : List α) (N_var N_mu : Nat) : Evaluable α δ :=
  { g.hd with
    a := xyza.drop N_var
    mu := g.hd.mu.bare (xyza.take N_var) (List.replicate N_mu 0) }

/-- L335-403 `calc_f` at the point `xyza`. -/
def GN.calcF [Field α] (g : GN α δ) (xyza : List α) : Py (List α) := do
  let N_mu ← pyLast g.hd.mu.idx.cNm
  let N_var ← pyLast g.hd.mu.idx.idx
  let d ← npZip (· - ·) (slice xyza 0 N_var) (slice g.hd.mu.values 0 N_var)
  let f ← setSlice (List.replicate (N_var + N_mu) 0) 0 N_var d
  let est ← (g.estimate xyza N_var N_mu).denormalise
  let ks ← evaluateK est (.num 0)
  let ks ← (List.range est.mu.idx.Im.length).foldlM (fun ks i => do
    let lo ← pyGet est.mu.idx.cNm i
    let hi ← pyGet est.mu.idx.cNm (i + 1)
    let u ← pyGet est.mu.unck i
    let v ← npZip (· / ·) (slice ks lo hi) u
    setSlice ks lo hi v) ks
  let dk ← npZip (· - ·) ks g.hd.mu.ks
  setSlice f N_var f.length dk

/-- L141-168 `__init__`: `chol` is `numpy.linalg.cholesky`; without a covariance matrix the preconditioner is the identity. -/
def GN.init [Zero α] [One α] (chol : List (List α) → Py (List (List α))) (hd : Evaluable α δ) (V : Option (List (List α))) : Py (GN α δ) := do
  let S ← match V with
    | some V => chol V
    | none => .ok ((List.range hd.a.length).map fun i => (List.range hd.a.length).map fun j => if i = j then 1 else 0)
  pure { hd := hd, xyza := hd.mu.values ++ hd.a, S := S }

/-! ### Parameter covariance -/

/-- `zeros(n); v[i] = 1`. -/
def unitVec [Zero α] [One α] (n i : Nat) : Py (List α) :=
  if i < n then .ok ((List.replicate n 0).set i 1) else .error .indexError

/-- L925-952 `calculate_parameter_covariance_matrix_ij`; `minres g b` is the vector left by `Minres(H).solve(b)` with `H` the operator `calc_Hx`. -/
def GN.covarianceIJ [Field α] (g : GN α δ) (minres : GN α δ → List α → Py (List α)) (i j : Nat) : Py α := do
  let N_var ← pyLast g.hd.mu.idx.idx
  let c ← unitVec (N_var + g.hd.a.length) (N_var + i)
  let d ← unitVec (N_var + g.hd.a.length) (N_var + j)
  let pd ← g.calcPx true d
  let dt ← minres g pd
  let pc ← g.calcPx true c
  npDot pc dt

/-- L899-923 `calculate_parameter_covariance_matrix` (the elements are computed in a process pool; their order does not matter). -/
def GN.covariance [Field α] (g : GN α δ) (minres : GN α δ → List α → Py (List α)) : Py (List (List α)) := do
  let n := g.hd.a.length
  let V ← (List.range n).mapM fun i => (List.range n).mapM fun j => g.covarianceIJ minres i j
  pure ((List.range n).map fun i => (List.range n).map fun j =>
    ((V.getD i []).getD j 0 + (V.getD j []).getD i 0) / 2)

/-! ### The Gauss-Newton loop -/

/-- `norm(v)**2`. -/
def sqNorm [Field α] (v : List α) : α := (v.map fun x => x * x).sum

/-- `norm(v, inf)`; numpy raises `ValueError` for an empty vector. -/
def infNorm [Field α] [LinearOrder α] (v : List α) : Py α :=
  match v.map fun x => |x| with
  | [] => .error .valueError
  | x :: xs => .ok (xs.foldl max x)

/-- Tolerances: `tol`, `tol**0.5`, `tol**(1/3)`. -/
structure GNTol (α : Type) where
  tol : α
  root : α
  cubeRoot : α

/-- One line of `GNlog` (L262): cost reduction, its bound, step norm, its bound, gradient norm, its bound. -/
structure GNLogLine (α : Type) where
  reduction : α
  reductionTol : α
  normD : α
  normDTol : α
  normG : α
  normGTol : α

/-- Local variables of the loop, with the attribute `x` of the LSMR object. -/
structure GNState (α : Type) where
  xyza : List α
  residuals : List α
  cost_previous : α
  cost : Option α
  conv : Bool
  niter : Nat
  log : List (GNLogLine α)
  solution : Option (List α)

/-- What a call of the `solve` method of an `LSMRFramework` object on `(J, b)` leaves in the attribute `x` of the object, given what was there before
(`None` at first). -/
abbrev LsmrObject (α δ : Type) := GN α δ → List α → Option (List α) → Py (Option (List α))

/-- Slicing `None` is a `TypeError`. -/
def needArray : Option (List α) → Py (List α)
  | some z => .ok z
  | none => .error .typeError

/-- L225-262: one iteration. -/
def GN.iterate [Field α] [LinearOrder α] (g : GN α δ) (lsmr : LsmrObject α δ) (tol : GNTol α) (st : GNState α) : Py (GNState α) := do
  let g := { g with xyza := st.xyza }
  let s ← lsmr g (st.residuals.map fun x => -x) st.solution
  let z ← needArray s
  let d ← g.calcPx false z
  let xyza ← npZip (· + ·) st.xyza d
  let g := { g with xyza := xyza }
  let residuals ← g.calcF xyza
  let cost := sqNorm residuals
  let grad ← g.getJPTx residuals
  let normD ← infNorm d
  let normX ← infNorm xyza
  let normG ← infNorm (grad.map (2 * ·))
  let line : GNLogLine α := { reduction := st.cost_previous - cost, reductionTol := tol.tol * (1 + cost), normD := normD
                              normDTol := tol.root * (1 + normX), normG := normG, normGTol := tol.cubeRoot * (1 + cost) }
  let conv := decide (0 ≤ line.reduction) && decide (line.reduction < line.reductionTol) && decide (line.normD < line.normDTol)
    && decide (line.normG ≤ line.normGTol)
  pure { xyza := xyza, residuals := residuals, cost_previous := cost, cost := some cost, conv := conv, niter := st.niter + 1
         log := st.log ++ [line], solution := s }

/-- L221-269: `while (conv is False) and (niter < mxiter)`; the first argument is `mxiter - niter`. -/
def GN.loop [Field α] [LinearOrder α] (g : GN α δ) (lsmr : LsmrObject α δ) (tol : GNTol α) : Nat → GNState α → Py (GNState α)
  | 0, st => pure st
  | k + 1, st => if st.conv then pure st else do
    let st ← g.iterate lsmr tol st
    g.loop lsmr tol k st

/-- What `run` returns (L332-333), with the final estimates kept in the object. `dof` is an integer and may be negative. -/
structure GNResult (α : Type) where
  a : List α
  covariance : List (List α)
  cost : α
  dof : Int
  values_res : List α
  ks_res : List α
  systematic_errors : Option (List α)
  systematic_error_sensors : Option (List String)
  state : GNState α

/-- L314-330: sensors of the fitted systematic errors. -/
def sysSensors (x : Idx) (unc : List (UncBlock α)) (n_uS : Nat) : Py (List String) := do
  let n_uSs ← unc.mapM fun u => if u.unc.typeID == 2 || u.unc.typeID == 4 then match u.uS_i with
    | some i => (.ok i : Py Nat)
    | none => .error .attributeError
    else .ok 0
  (List.range n_uS).mapM fun k => do
    let b ← pyIndex n_uSs (k + 1)
    let s ← pyGet x.n_sensor b
    pyGet x.sensors s

/-- L276-286: the covariance matrix, or zeros. -/
def GN.runCovariance [Field α] (g : GN α δ) (minres : GN α δ → List α → Py (List α)) (return_covariance : Bool) (n : Nat) : Py (List (List α)) :=
  if return_covariance then g.covariance minres else .ok (List.replicate n (List.replicate n 0))

/-- L313-330: fitted systematic errors and their sensors, `None` when there are none. -/
def GN.runSystematic [Field α] (g : GN α δ) (N_var n_uS : Nat) : Py (Option (List α) × Option (List String)) :=
  if n_uS = 0 then .ok (none, none) else do
    let l ← sysSensors g.hd.mu.idx g.hd.mu.unc n_uS
    pure (some (slice g.xyza (N_var - n_uS) N_var), some l)

/-- Reading a local variable which may not have been assigned. -/
def needLocal {β : Type} : Option β → Py β
  | some x => .ok x
  | none => .error .unboundLocalError

/-- L170-333 `run`. -/
def GN.run [Field α] [LinearOrder α] (g : GN α δ) (lsmr : LsmrObject α δ) (minres : GN α δ → List α → Py (List α)) (tol : GNTol α) (return_covariance : Bool) :
    Py (GNResult α) := do
  let N_mu ← pyLast g.hd.mu.idx.cNm
  let N_var ← pyLast g.hd.mu.idx.idx
  let r0 ← g.calcF g.xyza
  let st ← g.loop lsmr tol N_var { xyza := g.xyza, residuals := r0, cost_previous := sqNorm r0, cost := none, conv := false, niter := 0, log := [], solution := none }
  let V ← GN.runCovariance { g with xyza := st.xyza } minres return_covariance (st.xyza.drop N_var).length
  let res ← transformReverse (g.hd.mu.bare (st.residuals.take N_var) (st.residuals.drop N_var))
  let n_uS ← numSys g.hd.mu.unc
  let sys ← GN.runSystematic { g with xyza := st.xyza } N_var n_uS
  let cost ← needLocal st.cost
  pure { a := st.xyza.drop N_var, covariance := V, cost := cost, dof := (N_var : Int) - N_mu - g.hd.a.length, values_res := res.values, ks_res := res.ks
         systematic_errors := sys.1, systematic_error_sensors := sys.2, state := st }

/-! ### Saving and restoring -/

/-- What `save` (L972-1012) writes: the netCDF variables and the pickled `idx` (float32 rounding is not modelled). -/
structure GNSaved (α : Type) where
  values_t_initial : List α
  variables_t_estimate : List α
  preconditioner_solution : List (List α)
  idx : Idx

/-- L972-1012 `save`. -/
def GN.save (g : GN α δ) : GNSaved α :=
  { values_t_initial := g.hd.mu.values, variables_t_estimate := g.xyza, preconditioner_solution := g.S, idx := g.hd.mu.idx }

/-- L1014-1026 `open`. -/
def GN.open (g : GN α δ) (f : GNSaved α) : GN α δ :=
  { hd := { g.hd with mu := { g.hd.mu with idx := f.idx, values := f.values_t_initial } }
    xyza := f.variables_t_estimate, S := f.preconditioner_solution }

end Verif
