import Verif.Model.GN
/-
Model of `harmonisationProcessing/harmonisation_eiv_pc/pc_algo.py` (class `PCAlgo`): the covariance matrix of K with the measured variables held
fixed (`calc_LK`), the weighted residuals and their Jacobian with respect to the calibration parameters (`calc_fJa`), and the outer loop (`runPC`).

Numbers are elements of a field; float32 rounding is not modelled.  Cholesky factorisation, triangular solves, least squares and QR are parameters.
-/
set_option autoImplicit false
namespace Verif
variable {α δ : Type}

/-- L92-111 `PCAlgo.__init__`: match-up data, variables followed by parameters. -/
structure PC (α δ : Type) where
  hd : Evaluable α δ
  xyza : List α

/-- L108. -/
def PC.init (hd : Evaluable α δ) : PC α δ := { hd := hd, xyza := hd.mu.values ++ hd.a }

/-- L110-111: `calc_R` is that of a `GNAlgo` built without data, so that the W and u matrices cannot be reached (in Python an `AttributeError` on
`None`; here the failure of the access to an empty store). -/
def PC.gn (p : PC α δ) : GN α δ :=
  { hd := { p.hd with mu := { p.hd.mu with w_matrices := [], u_matrices := [] } }, xyza := p.xyza, S := [] }

/-- The call of `calc_R` in L229-237 and L384-392. -/
def PC.calcR [Field α] (p : PC α δ) (n_sensor n_mu : Nat) : Py (List α × Option (List (List α))) := do
  let name ← pyGet p.hd.mu.idx.sensors n_sensor
  let xt ← p.hd.mu.getSensorAcrossTrackIndex n_mu name
  let al ← p.hd.mu.getSensorAlongTrackIndex n_mu name
  let t ← p.hd.mu.getSensorTime n_mu name
  p.gn.calcR xt al t n_sensor n_mu

/-! ### numpy matrices, given by their rows -/

/-- `eye(n)`. -/
def npEye [Zero α] [One α] (n : Nat) : List (List α) := (List.range n).map fun i => (List.range n).map fun j => if i = j then 1 else 0

/-- `diag(v)`. -/
def npDiag [Zero α] (v : List α) : List (List α) :=
  (List.range v.length).map fun i => (List.range v.length).map fun j => if i = j then v.getD i 0 else 0

/-- `s * diag(v) * uR / uK`: the vectors are broadcast along the rows. -/
def scaledDiag [Field α] (s : α) (v uR uK : List α) : Py (List (List α)) :=
  ((npDiag v).map fun r => r.map (s * ·)).mapM fun r => do
    let q ← npZip (· * ·) r uR
    npZip (· / ·) q uK

/-- `dot(J, J.T)`. -/
def npGram [Field α] (J : List (List α)) : Py (List (List α)) := J.mapM fun r => J.mapM fun q => npDot r q

/-- `A + B` for matrices, with numpy broadcasting of a single row. -/
def matAdd [Field α] (A B : List (List α)) : Py (List (List α)) :=
  if A.length = B.length then (A.zip B).mapM fun p => npZip (· + ·) p.1 p.2
  else match A, B with
    | [a], _ => B.mapM fun b => npZip (· + ·) a b
    | _, [b] => A.mapM fun a => npZip (· + ·) a b
    | _, _ => .error .valueError

/-- `V[a:b, a:b] = V[a:b, a:b] + G` for a square `G` (the sum has to have the shape of the window). -/
def addWindow [Field α] (V : List (List α)) (a b : Nat) (G : List (List α)) : Py (List (List α)) := do
  let S ← matAdd ((slice V a b).map fun r => slice r a b) G
  if S.length = (slice V a b).length then do
    let rows ← ((slice V a b).zip S).mapM fun p => setSlice p.1 a b p.2
    setSlice V a b rows
  else .error .valueError

/-! ### Covariance of K -/

/-- Local variables of `calc_LK`: `VK`, the columns of `JT`, and `JK` if it has been assigned. -/
structure PCState (α : Type) where
  VK : List (List α)
  JT : List (List α)
  JK : Option (List (List α))

/-- `JT[a:b, n_sensor-1] = v` (column `-1` is the last one). -/
def setSysColumn (JT : List (List α)) (n_sensor a b : Nat) (v : List α) : Py (List (List α)) := do
  let col ← pyGetInt JT ((n_sensor : Int) - 1)
  let c ← setSlice col a b v
  pure (JT.set (if n_sensor = 0 then JT.length - 1 else n_sensor - 1) c)

/-- The random uncertainty of a block (`block_unc.uR`), which structured uncertainties do not have. -/
def Unc.random : Unc α → Py (List α)
  | .independent uR | .systematic uR _ => .ok uR
  | _ => .error .attributeError

/-- L264-282: one covariate of a sensor being calibrated; a block of another type re-uses the matrix of the previous block. -/
def PC.covVar [Field α] (p : PC α δ) (s : α) (JB uK : List α) (JR : List (List α)) (rows : Nat × Nat) (n_sensor n_mu : Nat) (st : PCState α) (c : Nat) :
    Py (PCState α) := do
  let im ← pyIndex p.hd.mu.idx.blocks (n_sensor, n_mu, c + 1)
  let u ← pyGet p.hd.mu.unc im
  let st ← (match u.unc with
    | .independent uR => do
      let JRc ← pyGet JR c
      let v ← npZip (· * ·) JB JRc
      let JK ← scaledDiag s v uR uK
      pure { st with JK := some JK }
    | .systematic uR uS => do
      let JRc ← pyGet JR c
      let v ← npZip (· * ·) JB JRc
      let JK ← scaledDiag s v uR uK
      let t ← npZip (· * ·) (JB.map (s * ·)) JRc
      let t ← npZip (· * ·) t uS
      let t ← npZip (· / ·) t uK
      let JT ← setSysColumn st.JT n_sensor rows.1 rows.2 t
      pure { st with JK := some JK, JT := JT }
    | _ => (.ok st : Py (PCState α)))
  let JK ← needLocal st.JK
  let G ← npGram JK
  let VK ← addWindow st.VK rows.1 rows.2 G
  pure { st with VK := VK }

/-- L248-258: a reference sensor: only its first block, only the independent part. -/
def PC.refVar [Field α] (p : PC α δ) (s : α) (JB uK : List α) (rows : Nat × Nat) (n_sensor n_mu : Nat) (st : PCState α) : Py (PCState α) := do
  let im ← pyIndex (p.hd.mu.idx.n_sensor.zip p.hd.mu.idx.n_mu) (n_sensor, n_mu)
  let u ← pyGet p.hd.mu.unc im
  let uR ← u.unc.random
  let JK ← scaledDiag s JB uR uK
  let G ← npGram JK
  let VK ← addWindow st.VK rows.1 rows.2 G
  pure { st with VK := VK, JK := some JK }

/-- L227-282: one sensor of one series. -/
def PC.sideVar [Field α] (p : PC α δ) (N_cov : Nat) (rows : Nat × Nat) (uK : List α) (n_mu : Nat) (s : α) (n_sensor : Nat) (st : PCState α) :
    Py (PCState α) := do
  let R ← p.calcR n_sensor n_mu
  let B ← pyGet p.hd.adjustment_model n_sensor
  let JB ← B R.1
  match R.2 with
  | none => p.refVar s JB.2 uK rows n_sensor n_mu st
  | some JR => (List.range N_cov).foldlM (p.covVar s JB.2 uK JR rows n_sensor n_mu) st

/-- L216-282: one series: first sensor with factor -1, second with factor 1. -/
def PC.seriesVar [Field α] (p : PC α δ) (N_cov : Nat) (st : PCState α) (pi : (Nat × Nat) × Nat) : Py (PCState α) := do
  let uK ← pyGet p.hd.mu.unck pi.2
  let lo ← pyGet p.hd.mu.idx.cNm pi.2
  let hi ← pyGet p.hd.mu.idx.cNm (pi.2 + 1)
  let st ← p.sideVar N_cov (lo, hi) uK (pi.2 + 1) (-1) pi.1.1 st
  p.sideVar N_cov (lo, hi) uK (pi.2 + 1) 1 pi.1.2 st

/-- L284: `VK + dot(JT, JT.T)`. -/
def addSys [Field α] (VK JT : List (List α)) : List (List α) :=
  VK.zipIdx.map fun r => r.1.zipIdx.map fun v => v.1 + (JT.map fun c => c.getD r.2 0 * c.getD v.2 0).sum

/-- L188-284: the matrix factorised by `calc_LK`. -/
def PC.calcVK [Field α] (p : PC α δ) : Py (List (List α)) := do
  let N_mu ← pyLast p.hd.mu.idx.cNm
  let labels ← needKey p.hd.mu.idx.parameter_sensor
  let N_cov ← pyLast p.hd.mu.idx.n_cov
  let st ← p.hd.mu.idx.Im.zipIdx.foldlM (p.seriesVar N_cov)
    { VK := npEye N_mu, JT := List.replicate labels.dedup.length (List.replicate N_mu 0), JK := none }
  pure (addSys st.VK st.JT)

/-- L188-289 `calc_LK`. -/
def PC.calcLK [Field α] (chol : List (List α) → Py (List (List α))) (p : PC α δ) : Py (List (List α)) := do
  let V ← p.calcVK
  chol V

/-! ### Residuals and Jacobian -/

/-- `M[a:b, cols] = A`, the matrices being given by their columns; an empty `cols` is an integer array (`dtype=int32`) and selects nothing. -/
def setColumns (M : List (List α)) (a b : Nat) (pos : List Nat) (A : List (List α)) : Py (List (List α)) :=
  (pos.zip A).foldlM (fun M pc => do
    let col ← pyGet M pc.1
    let c ← setSlice col a b pc.2
    pure (M.set pc.1 c)) M

/-- L382-408: one sensor of one series: adjusted measurand, and the columns of the Jacobian with the parameters of this sensor filled in. -/
def PC.sideJa [Field α] (p : PC α δ) (N_cov : Nat) (rows : Nat × Nat) (uK : List α) (n_mu : Nat) (s : α) (n_sensor : Nat) (Ja : List (List α)) :
    Py (List α × List (List α)) := do
  let name ← pyGet p.hd.mu.idx.sensors n_sensor
  let R ← p.calcR n_sensor n_mu
  let B ← pyGet p.hd.adjustment_model n_sensor
  let b ← B R.1
  match R.2 with
  | none => pure (b.1, Ja)
  | some JR => do
    let labels ← needKey p.hd.mu.idx.parameter_sensor
    let pos := paramPositions labels 0 name
    let A ← paramCols (b.2.map (s * ·)) JR N_cov pos.length
    let A ← A.mapM fun c => npZip (· / ·) c uK
    let Ja ← setColumns Ja rows.1 rows.2 pos A
    pure (b.1, Ja)

/-- L369-409: one series. -/
def PC.seriesJa [Field α] (p : PC α δ) (N_cov : Nat) (st : List α × List (List α)) (pi : (Nat × Nat) × Nat) : Py (List α × List (List α)) := do
  let uK ← pyGet p.hd.mu.unck pi.2
  let lo ← pyGet p.hd.mu.idx.cNm pi.2
  let hi ← pyGet p.hd.mu.idx.cNm (pi.2 + 1)
  let r1 ← p.sideJa N_cov (lo, hi) uK (pi.2 + 1) (-1) pi.1.1 st.2
  let r2 ← p.sideJa N_cov (lo, hi) uK (pi.2 + 1) 1 pi.1.2 r1.2
  let d ← npZip (· - ·) r2.1 r1.1
  let e ← npZip (· / ·) d uK
  let k ← setSlice st.1 lo hi e
  pure (k, r2.2)

/-- L362: `self.xyza[N_var:N_var + N_a] = a`. -/
def PC.setParams (p : PC α δ) (a : List α) : Py (PC α δ) := do
  let N_var ← pyLast p.hd.mu.idx.idx
  let x ← setSlice p.xyza N_var (N_var + p.hd.a.length) a
  pure { p with xyza := x }

/-- L351-409: estimated K and the columns of the unweighted Jacobian, both divided by the K uncertainties. -/
def PC.calcFJ [Field α] (p : PC α δ) (a : List α) : Py (List α × List (List α)) := do
  let N_mu ← pyLast p.hd.mu.idx.cNm
  let N_cov ← pyLast p.hd.mu.idx.n_cov
  let p ← p.setParams a
  p.hd.mu.idx.Im.zipIdx.foldlM (p.seriesJa N_cov) (List.replicate N_mu 0, List.replicate p.hd.a.length (List.replicate N_mu 0))

/-- L291-306, L412-415 `get_f`; `solve` is `solve(LK, ·)`. -/
def PC.getF [Field α] (solve : List α → Py (List α)) (p : PC α δ) (a : List α) : Py (List α) := do
  let r ← p.calcFJ a
  let d ← npZip (· - ·) r.1 p.hd.mu.ks
  solve d

/-- L308-324, L417-420 `get_Ja`, as the columns of the matrix. -/
def PC.getJa [Field α] (solve : List α → Py (List α)) (p : PC α δ) (a : List α) : Py (List (List α)) := do
  let r ← p.calcFJ a
  r.2.mapM solve

/-! ### The run -/

/-- The numpy/scipy routines called by `runPC`; all matrices by their rows, except that `qrR` is given the columns of J. -/
structure PCRoutines (α : Type) where
  /-- `numpy.linalg.cholesky` -/
  chol : List (List α) → Py (List (List α))
  /-- `numpy.linalg.solve(L, ·)` for one right-hand side -/
  solve : List (List α) → List α → Py (List α)
  /-- `scipy.optimize.least_squares(f, a0, J, ftol=tol, xtol=tol)`: the solution, and the point where `f` or `J` was evaluated last -/
  lsq : (List α → Py (List α)) → List α → (List α → Py (List (List α))) → α → Py (List α × List α)
  /-- square root, in `norm` -/
  sqrt : α → Py α
  /-- `qr(J)[1]` -/
  qrR : List (List α) → Py (List (List α))
  /-- `lstsq(R, B)[0]` -/
  lstsq : List (List α) → List (List α) → Py (List (List α))

/-- L145 `20 + ceil(ncol**0.5)`. -/
def pcMaxIter (ncol : Nat) : Nat := 20 + (if Nat.sqrt ncol * Nat.sqrt ncol = ncol then Nat.sqrt ncol else Nat.sqrt ncol + 1)

/-- Variables of the loop: the object (its `xyza`), `self.LK`, `a`, `conv`, `niter`; before the first iteration `a` is `a0`. -/
structure PCLoop (α δ : Type) where
  pc : PC α δ
  LK : Option (List (List α))
  a : List α
  conv : Bool
  niter : Nat

/-- L153-172: one refinement. `get_f` and `get_Ja` leave the parameters they were last called with in `self.xyza`. -/
def PC.refine [Field α] [LinearOrder α] (o : PCRoutines α) (tol : α) (st : PCLoop α δ) : Py (PCLoop α δ) := do
  let LK ← st.pc.calcLK o.chol
  let r ← o.lsq (st.pc.getF (o.solve LK)) st.a (st.pc.getJa (o.solve LK)) tol
  let pc ← st.pc.setParams r.2
  let d ← npZip (· - ·) r.1 st.a
  let dd ← npDot d d
  let nrm ← o.sqrt dd
  pure { pc := pc, LK := some LK, a := r.1, conv := decide (nrm < tol), niter := st.niter + 1 }

/-- L151-172: the loop; the argument is the number of refinements still allowed. -/
def PC.refineLoop [Field α] [LinearOrder α] (o : PCRoutines α) (tol : α) : Nat → PCLoop α δ → Py (PCLoop α δ)
  | 0, st => pure st
  | k + 1, st => if st.conv then pure st else do
    let st ← PC.refine o tol st
    PC.refineLoop o tol k st

/-- `dot(U, U.T)` with `U` as found by `lstsq` from `R[:N_a, :N_a]`, L181-184. -/
def PC.spread [Field α] (o : PCRoutines α) (N_a : Nat) (J : List (List α)) : Py (List (List α)) := do
  let R ← o.qrR J
  let U ← o.lstsq ((R.take N_a).map fun r => r.take N_a) (npEye N_a)
  npGram U

/-- L113-191 `runPC`: the parameters and the matrix V (the other five returned values are `None`), and the object afterwards. -/
def PC.run [Field α] [LinearOrder α] (o : PCRoutines α) (tol : α) (p : PC α δ) : Py (List α × List (List α) × PC α δ) := do
  let st ← PC.refineLoop o tol (pcMaxIter (p.hd.mu.values.length + p.hd.a.length)) { pc := p, LK := none, a := p.hd.a, conv := false, niter := 0 }
  let LK ← needLocal st.LK
  let J ← st.pc.getJa (o.solve LK) st.a
  let V ← PC.spread o p.hd.a.length J
  let pc ← st.pc.setParams st.a
  pure (st.a, V, pc)

end Verif
