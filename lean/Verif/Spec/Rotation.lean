import Verif.Model.Krylov
import Mathlib.Algebra.Module.LinearMap.Defs
/-
The state of a linear solver in other coordinates.
-/
set_option autoImplicit false
namespace Verif
open Matrix
variable {α : Type} [Field α] [LinearOrder α] {m n m' n' : Nat}

/-- A change of coordinates which preserves lengths and angles: a renumbering, a rotation, a reflection. -/
def IsRotation (f : (Fin n → α) →ₗ[α] (Fin n' → α)) : Prop := ∀ u v, f u ⬝ᵥ f v = u ⬝ᵥ v

/-- All vectors in the new coordinates, all numbers as they are. -/
def MinresState.rotate (f : (Fin n → α) →ₗ[α] (Fin n' → α)) (st : MinresState α n) : MinresState α n' :=
  { istop := st.istop, itn := st.itn, x := f st.x, y := f st.y, r1 := f st.r1, r2 := f st.r2, w := f st.w, w2 := f st.w2, oldb := st.oldb, beta := st.beta
    dbar := st.dbar, epsln := st.epsln, phibar := st.phibar, rhs1 := st.rhs1, rhs2 := st.rhs2, tnorm2 := st.tnorm2, ynorm2 := st.ynorm2, cs := st.cs, sn := st.sn
    gmax := st.gmax, gmin := st.gmin, xNrgNorm2 := st.xNrgNorm2, dErr := st.dErr, Anorm := st.Anorm, Acond := st.Acond, ynorm := st.ynorm, rnorm := st.rnorm
    Arnorm := st.Arnorm, residHistory := st.residHistory }

/-- The vectors of the equations in new coordinates `e`, those of the unknowns in new coordinates `f`, all numbers as they are. -/
def LsmrState.rotate (e : (Fin m → α) →ₗ[α] (Fin m' → α)) (f : (Fin n → α) →ₗ[α] (Fin n' → α)) (st : LsmrState α m n) : LsmrState α m' n' :=
  { istop := st.istop, itn := st.itn, u := e st.u, v := f st.v, beta := st.beta, alpha := st.alpha, zetabar := st.zetabar, alphabar := st.alphabar, rho := st.rho
    rhobar := st.rhobar, cbar := st.cbar, sbar := st.sbar, h := f st.h, hbar := f st.hbar, x := f st.x, betadd := st.betadd, betad := st.betad, rhodold := st.rhodold
    tautildeold := st.tautildeold, thetatilde := st.thetatilde, zeta := st.zeta, d := st.d, normA2 := st.normA2, maxrbar := st.maxrbar, minrbar := st.minrbar
    normA := st.normA, condA := st.condA, normx := st.normx, normr := st.normr, normar := st.normar, xNrgNorm2 := st.xNrgNorm2, dErr := st.dErr }

end Verif
