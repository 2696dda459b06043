import Verif.Model.Py
import Mathlib.Data.Matrix.Mul
import Mathlib.Algebra.Order.Field.Basic
/-
The two iterative linear solvers.  HE stands for
/repo/harmonisation_eiv/harmonisation/core/matchup/matchupToolbox/harmonisation/harmonisationProcessing/harmonisation_eiv.

Numbers are elements of an ordered field (no rounding: `1 + t <= 1` is `t <= 0`); a numpy array of `n` values is a function `Fin n → α`; `numpy.dot` is
`⬝ᵥ`.  The square root is a parameter which may fail (a field need not contain the root).  Dividing numpy numbers by zero gives `inf` or `nan` and is
reported as `nonFinite`; dividing Python floats by zero raises `ZeroDivisionError`.
Not modelled: printing (`show`), the options `store_resids` and `store_iterates` (off), preconditioners `precon`, `M`, `N` (never given by the callers),
the list `dir_errors_window`.
-/
set_option autoImplicit false
namespace Verif
variable {α : Type} [Field α] [LinearOrder α] {m n : Nat}

/-- Division of numpy numbers. -/
def npDiv (a b : α) : Py α := if b = 0 then .error .nonFinite else .ok (a / b)

/-- Division of Python floats. -/
def pyDiv (a b : α) : Py α := if b = 0 then .error .zeroDivisionError else .ok (a / b)

/-- `norm(v)**2` of a list of numbers. -/
def sumSq (l : List α) : α := (l.map fun x => x * x).sum

/-! ### MINRES: HE/pykrylov_minres.py -/

/-- Options of a solve, HE/pykrylov_minres.py L121-130, and the machine constants `eps` (L110) and `eps**(1.0/3)` (pykrylov_tools_utils.py L82). -/
structure MinresOpts (α : Type) where
  shift : α
  check : Bool
  itnlim : Nat
  rtol : α
  etol : α
  window : Nat
  eps : α
  cubeRootEps : α

/-- HE/pykrylov_tools_utils.py L63-85 `check_symmetric`: `probes` are the random vectors. -/
def checkSymmetric (opts : MinresOpts α) (A : (Fin n → α) → Py (Fin n → α)) : List (Fin n → α) → Py Bool
  | [] => .ok true
  | x :: probes => do
    let w ← A x
    let r ← A w
    let s := w ⬝ᵥ w
    let t := x ⬝ᵥ r
    if (s + opts.eps) * opts.cubeRootEps < |s - t| then pure false else checkSymmetric opts A probes

/-- The variables of the main loop, HE/pykrylov_minres.py L132-208. `Acond` is `none` when it is infinite (`gmin` zero, L344). `gmax` and `gmin` are
assigned in the first iteration (L263-264). -/
structure MinresState (α : Type) (n : Nat) where
  istop : Int
  itn : Nat
  x : Fin n → α
  y : Fin n → α
  r1 : Fin n → α
  r2 : Fin n → α
  w : Fin n → α
  w2 : Fin n → α
  oldb : α
  beta : α
  dbar : α
  epsln : α
  phibar : α
  rhs1 : α
  rhs2 : α
  tnorm2 : α
  ynorm2 : α
  cs : α
  sn : α
  gmax : α
  gmin : α
  xNrgNorm2 : α
  dErr : List α
  Anorm : α
  Acond : Option α
  ynorm : α
  rnorm : α
  Arnorm : α
  residHistory : List α

/-- What L236-248 compute: the Lanczos vector `v` and the next unnormalised one. -/
structure LanczosStep (α : Type) (n : Nat) where
  v : Fin n → α
  alfa : α
  y : Fin n → α

/-- L242-243: `if itn >= 2: y = y - (beta/oldb)*r1`. -/
def MinresState.orthogonalise (st : MinresState α n) (y : Fin n → α) : Py (Fin n → α) :=
  if 2 ≤ st.itn + 1 then do
    let q ← npDiv st.beta st.oldb
    pure (y - q • st.r1)
  else pure y

/-- L236-246: from the normalised vector to the next unnormalised vector. -/
def MinresState.lanczos (opts : MinresOpts α) (A : (Fin n → α) → Py (Fin n → α)) (st : MinresState α n) : Py (LanczosStep α n) := do
  let s ← npDiv 1 st.beta
  let v := s • st.y
  let y ← A v
  let y := y - opts.shift • v
  let y ← st.orthogonalise y
  let alfa := v ⬝ᵥ y
  let q ← npDiv (-alfa) st.beta
  pure { v := v, alfa := alfa, y := q • st.r2 + y }

/-- L304-310: the truncated direct error test, run after the `window`-th iteration; gives the new `istop`. -/
def MinresState.directError (opts : MinresOpts α) (sqrt : α → Py α) (istop : Int) (itn : Nat) (dErr : List α) (xNrgNorm2 : α) : Py Int :=
  if opts.window < itn then do
    let trncDirErr ← sqrt (sumSq dErr)
    let xNrgNorm ← sqrt xNrgNorm2
    pure (if trncDirErr < opts.etol * xNrgNorm then 10 else istop)
  else pure istop

/-- L349-361: the stopping criteria, each overriding the ones before it. -/
def minresVerdict (opts : MinresOpts α) (istop : Int) (itn : Nat) (test1 test2 : α) (Acond : Option α) (epsx beta1 : α) : Int :=
  if istop ≠ 0 then istop else
  let i : Int := if 1 + test2 ≤ 1 then 2 else 0
  let i := if 1 + test1 ≤ 1 then 1 else i
  let i := if opts.itnlim ≤ itn then 6 else i
  let i := match Acond with
    | some c => if 1 / 10 / opts.eps ≤ c then 4 else i
    | none => 4
  let i := if beta1 ≤ epsx then 3 else i
  let i := if test2 ≤ opts.rtol then 2 else i
  if test1 ≤ opts.rtol then 1 else i

/-- L256-361: the rest of an iteration, after the Lanczos step `lz` with `beta` the norm of its vector. `gamma` is at least `eps`, which is positive: the
divisions by it never fail; nor does the division by `beta1` (L259), which is positive in the loop. -/
def MinresState.advance (opts : MinresOpts α) (sqrt : α → Py α) (beta1 : α) (st : MinresState α n) (lz : LanczosStep α n) (beta : α) :
    Py (MinresState α n) := do
  let itn := st.itn + 1
  let alfa := lz.alfa
  let tnorm2 := st.tnorm2 + alfa ^ 2 + st.beta ^ 2 + beta ^ 2
  let istop : Int := if itn = 1 then (if beta / beta1 ≤ 10 * opts.eps then -1 else st.istop) else st.istop
  let gmax := if itn = 1 then |alfa| else st.gmax
  let gmin := if itn = 1 then |alfa| else st.gmin
  let delta := st.cs * st.dbar + st.sn * alfa
  let gbar := st.sn * st.dbar - st.cs * alfa
  let epsln := st.sn * beta
  let dbar := -st.cs * beta
  let root ← sqrt (gbar ^ 2 + dbar ^ 2)
  let hyp ← sqrt (gbar ^ 2 + beta ^ 2)
  let gamma := max hyp opts.eps
  let cs := gbar / gamma
  let sn := beta / gamma
  let phi := cs * st.phibar
  let phibar := sn * st.phibar
  let w := (1 / gamma) • (lz.v - st.epsln • st.w2 - delta • st.w)
  let x := st.x + phi • w
  let xNrgNorm2 := st.xNrgNorm2 + phi * phi
  let dErr := st.dErr.set (itn % opts.window) phi
  let istop ← MinresState.directError opts sqrt istop itn dErr xNrgNorm2
  let gmax := max gmax gamma
  let gmin := min gmin gamma
  let z := st.rhs1 / gamma
  let ynorm2 := z ^ 2 + st.ynorm2
  let Anorm ← sqrt tnorm2
  let ynorm ← sqrt ynorm2
  let test1 ← npDiv phibar (Anorm * ynorm)
  let test2 ← npDiv root Anorm
  let Acond := if gmin = 0 then none else some (gmax / gmin)
  let istop := minresVerdict opts istop itn test1 test2 Acond (Anorm * ynorm * opts.eps) beta1
  pure { istop := istop, itn := itn, x := x, y := lz.y, r1 := st.r2, r2 := lz.y, w := w, w2 := st.w, oldb := st.beta, beta := beta, dbar := dbar, epsln := epsln
         phibar := phibar, rhs1 := st.rhs2 - delta * z, rhs2 := -epsln * z, tnorm2 := tnorm2, ynorm2 := ynorm2, cs := cs, sn := sn, gmax := gmax, gmin := gmin
         xNrgNorm2 := xNrgNorm2, dErr := dErr, Anorm := Anorm, Acond := Acond, ynorm := ynorm, rnorm := phibar, Arnorm := st.phibar * root
         residHistory := st.residHistory ++ [phibar] }

/-- L221-381: one turn of the loop; the second component says whether it ends with `break`. -/
def MinresState.turn (opts : MinresOpts α) (sqrt : α → Py α) (A : (Fin n → α) → Py (Fin n → α)) (beta1 : α) (st : MinresState α n) :
    Py (MinresState α n × Bool) := do
  let lz ← st.lanczos opts A
  let beta2 := lz.y ⬝ᵥ lz.y
  if beta2 < 0 then
    pure ({ st with istop := 6, itn := st.itn + 1, y := lz.y, r1 := st.r2, r2 := lz.y, oldb := st.beta, beta := beta2 }, true)
  else do
    let beta ← sqrt beta2
    let st ← st.advance opts sqrt beta1 lz beta
    pure (st, decide (0 < st.istop))

/-- L220: `while itn < itnlim`. The first argument bounds the number of turns; `itnlim - itn` is enough (`Minres.loop_fuel`). -/
def Minres.loop (opts : MinresOpts α) (sqrt : α → Py α) (A : (Fin n → α) → Py (Fin n → α)) (beta1 : α) : Nat → MinresState α n → Py (MinresState α n)
  | 0, st => pure st
  | k + 1, st => if st.itn < opts.itnlim then do
      let r ← st.turn opts sqrt A beta1
      if r.2 then pure r.1 else Minres.loop opts sqrt A beta1 k r.1
    else pure st

/-- L132-208: the state before the loop, for `beta1` as left by L166-180. -/
def Minres.start (opts : MinresOpts α) (b : Fin n → α) (istop : Int) (beta1 : α) : MinresState α n :=
  { istop := istop, itn := 0, x := 0, y := b, r1 := b, r2 := b, w := 0, w2 := 0, oldb := 0, beta := beta1, dbar := 0, epsln := 0, phibar := beta1, rhs1 := beta1
    rhs2 := 0, tnorm2 := 0, ynorm2 := 0, cs := -1, sn := 0, gmax := 0, gmin := 0, xNrgNorm2 := 0, dErr := List.replicate opts.window 0, Anorm := 0
    Acond := some 0, ynorm := 0, rnorm := 0, Arnorm := 0, residHistory := [] }

/-- L179-180: `if beta1 > 0: beta1 = sqrt(beta1)`. -/
def Minres.beta1 (sqrt : α → Py α) (bb : α) : Py α := if 0 < bb then sqrt bb else pure bb

/-- L186-190: the symmetry test. -/
def Minres.symmetric (opts : MinresOpts α) (A : (Fin n → α) → Py (Fin n → α)) (probes : List (Fin n → α)) : Py Bool :=
  if opts.check then checkSymmetric opts A probes else pure true

/-- L115-410 `solve(b)`: the attributes left in the object. -/
def Minres.solve (opts : MinresOpts α) (sqrt : α → Py α) (A : (Fin n → α) → Py (Fin n → α)) (probes : List (Fin n → α)) (b : Fin n → α) :
    Py (MinresState α n) := do
  let bb := b ⬝ᵥ b
  let beta1 ← Minres.beta1 sqrt bb
  let sym ← Minres.symmetric opts A probes
  let istop : Int := if sym then (if bb < 0 then 9 else 0) else 7
  let st := Minres.start opts b istop beta1
  if sym && decide (0 < bb) then Minres.loop opts sqrt A beta1 opts.itnlim st else pure st

/-- L395 `converged`. -/
def MinresState.converged (st : MinresState α n) : Bool := decide (st.istop ∈ [1, 2, 3, 4, 10])

/-! ### LSMR: HE/pykrylov_lsmr.py -/

/-- L497-499 `sign`. -/
def signOf (a : α) : α := if a < 0 then -1 else 1

/-- L502-520 `symOrtho`: cosine, sine and radius. -/
def symOrtho (sqrt : α → Py α) (a b : α) : Py (α × α × α) :=
  if b = 0 then pure (signOf a, 0, |a|)
  else if a = 0 then pure (0, signOf b, |b|)
  else if |a| < |b| then do
    let tau ← pyDiv a b
    let q ← sqrt (1 + tau * tau)
    let s ← pyDiv (signOf b) q
    let r ← pyDiv b s
    pure (s * tau, s, r)
  else do
    let tau ← pyDiv b a
    let q ← sqrt (1 + tau * tau)
    let c ← pyDiv (signOf a) q
    let r ← pyDiv a c
    pure (c, c * tau, r)

/-- Arguments of a solve, L64, L169-172. `huge` is the constant `1e+100` of L267. -/
structure LsmrOpts (α : Type) where
  damp : α
  atol : α
  btol : α
  conlim : α
  itnlim : Nat
  etol : α
  window : Nat
  huge : α

/-- The variables of the main loop, L236-284. Without preconditioners `u` and `Mu` are one array, and so are `v` and `Nv`. -/
structure LsmrState (α : Type) (m n : Nat) where
  istop : Nat
  itn : Nat
  u : Fin m → α
  v : Fin n → α
  beta : α
  alpha : α
  zetabar : α
  alphabar : α
  rho : α
  rhobar : α
  cbar : α
  sbar : α
  h : Fin n → α
  hbar : Fin n → α
  x : Fin n → α
  betadd : α
  betad : α
  rhodold : α
  tautildeold : α
  thetatilde : α
  zeta : α
  d : α
  normA2 : α
  maxrbar : α
  minrbar : α
  normA : α
  condA : α
  normx : α
  normr : α
  normar : α
  xNrgNorm2 : α
  dErr : List α

/-- The array divided by its norm, when that is positive (L220-221, L232-233, L320-321, L332-333). -/
def normalised {k : Nat} (c : α) (v : Fin k → α) : Fin k → α := if 0 < c then (1 / c) • v else v

/-- A step of the bidiagonalisation: the vectors and their norms. -/
structure Bidiag (α : Type) (m n : Nat) where
  u : Fin m → α
  beta : α
  v : Fin n → α
  alpha : α

/-- L210-234: the first vectors. -/
def Lsmr.first (sqrt : α → Py α) (AH : (Fin m → α) → Py (Fin n → α)) (b : Fin m → α) : Py (Bidiag α m n) := do
  let beta ← sqrt (b ⬝ᵥ b)
  if 0 < beta then do
    let u := normalised beta b
    let v ← AH u
    let alpha ← sqrt (v ⬝ᵥ v)
    pure { u := u, beta := beta, v := normalised alpha v, alpha := alpha }
  else pure { u := b, beta := beta, v := 0, alpha := 0 }

/-- L312-334: the next vectors. -/
def LsmrState.bidiag (sqrt : α → Py α) (A : (Fin n → α) → Py (Fin m → α)) (AH : (Fin m → α) → Py (Fin n → α)) (st : LsmrState α m n) :
    Py (Bidiag α m n) := do
  let Av ← A st.v
  let u := Av - st.alpha • st.u
  let beta ← sqrt (u ⬝ᵥ u)
  if 0 < beta then do
    let u := normalised beta u
    let Au ← AH u
    let v := Au - beta • st.v
    let alpha ← sqrt (v ⬝ᵥ v)
    pure { u := u, beta := beta, v := normalised alpha v, alpha := alpha }
  else pure { u := u, beta := beta, v := st.v, alpha := st.alpha }

/-- L370-375: the truncated direct error test. -/
def LsmrState.directError (opts : LsmrOpts α) (sqrt : α → Py α) (istop : Nat) (itn : Nat) (dErr : List α) (xNrgNorm2 : α) : Py Nat :=
  if opts.window < itn then do
    let trncDirErr ← sqrt (sumSq dErr)
    let xNrgNorm ← sqrt xNrgNorm2
    pure (if trncDirErr < opts.etol * xNrgNorm then 8 else istop)
  else pure istop

/-- L441-450: the stopping criteria, each overriding the ones before it. -/
def lsmrVerdict (opts : LsmrOpts α) (istop itn : Nat) (test1 test2 test3 t1 rtol ctol : α) : Nat :=
  let i := if opts.itnlim ≤ itn then 7 else istop
  let i := if 1 + test3 ≤ 1 then 6 else i
  let i := if 1 + test2 ≤ 1 then 5 else i
  let i := if 1 + t1 ≤ 1 then 4 else i
  let i := if test3 ≤ ctol then 3 else i
  let i := if test2 ≤ opts.atol then 2 else i
  if test1 ≤ rtol then 1 else i

/-- L305-450: one turn of the loop; `normb` is the norm of the right-hand side and `ctol` is `1/conlim` (L278-279). -/
def LsmrState.turn (opts : LsmrOpts α) (sqrt : α → Py α) (A : (Fin n → α) → Py (Fin m → α)) (AH : (Fin m → α) → Py (Fin n → α)) (normb ctol : α)
    (st : LsmrState α m n) : Py (LsmrState α m n) := do
  let itn := st.itn + 1
  let bi ← st.bidiag sqrt A AH
  let alpha := bi.alpha
  let beta := bi.beta
  let (chat, shat, alphahat) ← symOrtho sqrt st.alphabar opts.damp
  let (c, s, rho) ← symOrtho sqrt alphahat beta
  let thetanew := s * alpha
  let alphabar := c * alpha
  let thetabar := st.sbar * rho
  let rhotemp := st.cbar * rho
  let (cbar, sbar, rhobar) ← symOrtho sqrt (st.cbar * rho) thetanew
  let zeta := cbar * st.zetabar
  let zetabar := -sbar * st.zetabar
  let q1 ← pyDiv (thetabar * rho) (st.rho * st.rhobar)
  let hbar := st.h - q1 • st.hbar
  let q2 ← pyDiv zeta (rho * rhobar)
  let x := st.x + q2 • hbar
  let q3 ← pyDiv thetanew rho
  let h := bi.v - q3 • st.h
  let xNrgNorm2 := st.xNrgNorm2 + zeta * zeta
  let dErr := st.dErr.set (itn % opts.window) zeta
  let istop ← LsmrState.directError opts sqrt st.istop itn dErr xNrgNorm2
  let betaacute := chat * st.betadd
  let betacheck := -shat * st.betadd
  let betahat := c * betaacute
  let betadd := -s * betaacute
  let (ctildeold, stildeold, rhotildeold) ← symOrtho sqrt st.rhodold thetabar
  let thetatilde := stildeold * rhobar
  let rhodold := ctildeold * rhobar
  let betad := -stildeold * st.betad + ctildeold * betahat
  let tautildeold ← pyDiv (st.zeta - st.thetatilde * st.tautildeold) rhotildeold
  let taud ← pyDiv (zeta - thetatilde * tautildeold) rhodold
  let d := st.d + betacheck * betacheck
  let normr ← sqrt (d + (betad - taud) ^ 2 + betadd * betadd)
  let normA2 := st.normA2 + beta * beta
  let normA ← sqrt normA2
  let normA2 := normA2 + alpha * alpha
  let maxrbar := max st.maxrbar st.rhobar
  let minrbar := if 1 < itn then min st.minrbar st.rhobar else st.minrbar
  let condA ← pyDiv (max maxrbar rhotemp) (min minrbar rhotemp)
  let normar := |zetabar|
  let normx ← sqrt (x ⬝ᵥ x)
  let test1 ← pyDiv normr normb
  let test2 ← pyDiv normar (normA * normr)
  let test3 ← pyDiv 1 condA
  let q4 ← pyDiv (normA * normx) normb
  let t1 ← pyDiv test1 (1 + q4)
  let q5 ← pyDiv (opts.atol * normA * normx) normb
  let istop := lsmrVerdict opts istop itn test1 test2 test3 t1 (opts.btol + q5) ctol
  pure { istop := istop, itn := itn, u := bi.u, v := bi.v, beta := beta, alpha := alpha, zetabar := zetabar, alphabar := alphabar, rho := rho, rhobar := rhobar
         cbar := cbar, sbar := sbar, h := h, hbar := hbar, x := x, betadd := betadd, betad := betad, rhodold := rhodold, tautildeold := tautildeold
         thetatilde := thetatilde, zeta := zeta, d := d, normA2 := normA2, maxrbar := maxrbar, minrbar := minrbar, normA := normA, condA := condA
         normx := normx, normr := normr, normar := normar, xNrgNorm2 := xNrgNorm2, dErr := dErr }

/-- L304: `while itn < itnlim`, left by `break` when `istop > 0` (L477). -/
def Lsmr.loop (opts : LsmrOpts α) (sqrt : α → Py α) (A : (Fin n → α) → Py (Fin m → α)) (AH : (Fin m → α) → Py (Fin n → α)) (normb ctol : α) :
    Nat → LsmrState α m n → Py (LsmrState α m n)
  | 0, st => pure st
  | k + 1, st => if st.itn < opts.itnlim then do
      let st ← st.turn opts sqrt A AH normb ctol
      if 0 < st.istop then pure st else Lsmr.loop opts sqrt A AH normb ctol k st
    else pure st

/-- L236-284: the state before the loop. -/
def Lsmr.start (opts : LsmrOpts α) (bi : Bidiag α m n) (normA : α) : LsmrState α m n :=
  { istop := 0, itn := 0, u := bi.u, v := bi.v, beta := bi.beta, alpha := bi.alpha, zetabar := bi.alpha * bi.beta, alphabar := bi.alpha, rho := 1, rhobar := 1
    cbar := 1, sbar := 0, h := bi.v, hbar := 0, x := 0, betadd := bi.beta, betad := 0, rhodold := 1, tautildeold := 0, thetatilde := 0, zeta := 0, d := 0
    normA2 := bi.alpha * bi.alpha, maxrbar := 0, minrbar := opts.huge, normA := normA, condA := 1, normx := 0, normr := bi.beta, normar := bi.alpha * bi.beta
    xNrgNorm2 := 0, dErr := List.replicate opts.window 0 }

/-- L278-279: `ctol`. -/
def Lsmr.ctol (opts : LsmrOpts α) : α := if 0 < opts.conlim then 1 / opts.conlim else 0

/-- L64-494 `solve(b)`: what is returned (`x, istop, itn, normr, normar, normA, condA, normx`) and the attribute `x` of the object afterwards, given the one
it had before. With a zero initial `normar` the method returns without touching the attribute (L285-288). -/
def Lsmr.solve (opts : LsmrOpts α) (sqrt : α → Py α) (A : (Fin n → α) → Py (Fin m → α)) (AH : (Fin m → α) → Py (Fin n → α)) (b : Fin m → α)
    (held : Option (Fin n → α)) : Py (LsmrState α m n × Option (Fin n → α)) := do
  let bi ← Lsmr.first sqrt AH b
  let normA ← sqrt (bi.alpha * bi.alpha)
  let st := Lsmr.start opts bi normA
  if st.normar = 0 then pure (st, held) else do
    let st ← Lsmr.loop opts sqrt A AH bi.beta (Lsmr.ctol opts) opts.itnlim st
    pure (st, some st.x)

end Verif
