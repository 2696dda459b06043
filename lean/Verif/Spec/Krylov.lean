import Verif.Model.Krylov
import Mathlib.LinearAlgebra.Matrix.DotProduct
import Mathlib.LinearAlgebra.FiniteDimensional.Basic
import Mathlib.LinearAlgebra.Dimension.Finrank
import Mathlib.Analysis.Real.Sqrt
/-
What the iterative linear solvers are asked to do.
-/
set_option autoImplicit false
namespace Verif
variable {α : Type} [Field α] [LinearOrder α] {m n : Nat}

/-- A square root function: when it answers, the answer is the non-negative root. (It may fail: a field such as `ℚ` does not contain all roots.) -/
def IsSqrt (sqrt : α → Py α) : Prop := ∀ x r, sqrt x = .ok r → 0 ≤ r ∧ r * r = x

/-- The square root of the real numbers (`nan`, here a failure, for negative ones). -/
noncomputable def realSqrt (x : ℝ) : Py ℝ := if x < 0 then .error .nonFinite else .ok (Real.sqrt x)

/-- The squared Euclidean norm. -/
def normSq (v : Fin n → α) : α := ∑ i, v i * v i

/-- The Krylov space spanned by `b, M b, …, M^(k-1) b`. -/
def krylov (M : Matrix (Fin n) (Fin n) α) (b : Fin n → α) (k : Nat) : Submodule α (Fin n → α) :=
  Submodule.span α {v | ∃ j, j < k ∧ v = (M ^ j).mulVec b}

/-- `M v` is never shorter than `e` times `v`. -/
def BoundedBelow (M : Matrix (Fin m) (Fin n) α) (e : α) : Prop := ∀ v, e * e * normSq v ≤ normSq (M.mulVec v)

/-- The outcome code of MINRES tells the truth about the numbers reported with it: 1, the residual is small relative to the estimates of the norms of the
matrix and the solution; 2, so is the gradient at the iterate before; 3, the right-hand side is below working precision; 4, the condition number estimate is
too large; 6, the iteration limit; 10, the last corrections are small. `normb` is the norm of the right-hand side. -/
def MinresState.CodeTrue (opts : MinresOpts α) (normb : α) (st : MinresState α n) : Prop :=
  (st.istop = 1 → st.rnorm ≤ opts.rtol * (st.Anorm * st.ynorm)) ∧
  (st.istop = 2 → ∃ p, (normb :: st.residHistory)[st.itn - 1]? = some p ∧ st.Arnorm ≤ opts.rtol * st.Anorm * p) ∧
  (st.istop = 3 → normb ≤ opts.eps * (st.Anorm * st.ynorm)) ∧
  (st.istop = 4 → ∀ c, st.Acond = some c → 1 / 10 / opts.eps ≤ c) ∧
  (st.istop = 6 → st.itn = opts.itnlim) ∧
  (st.istop = 10 → opts.window < st.itn ∧ ∃ t e, 0 ≤ t ∧ t * t = sumSq st.dErr ∧ 0 ≤ e ∧ e * e = st.xNrgNorm2 ∧ t < opts.etol * e)

/-- The outcome code of LSMR tells the truth about the numbers reported with it: 1, the residual is small; 2, the gradient is; 3, the estimate of the condition number
exceeds the limit; 7, the iteration limit was reached; 8, the last corrections are small. `normb` is the norm of the right-hand side. -/
def LsmrState.CodeTrue (opts : LsmrOpts α) (normb : α) (st : LsmrState α m n) : Prop :=
  (st.istop = 1 → st.normr ≤ opts.btol * normb + opts.atol * st.normA * st.normx) ∧
  (st.istop = 2 → st.normar ≤ opts.atol * (st.normA * st.normr)) ∧
  (st.istop = 3 → 0 < opts.conlim ∧ opts.conlim ≤ st.condA) ∧
  (st.istop = 7 → st.itn = opts.itnlim) ∧
  (st.istop = 8 → opts.window < st.itn ∧ ∃ t e, 0 ≤ t ∧ t * t = sumSq st.dErr ∧ 0 ≤ e ∧ e * e = st.xNrgNorm2 ∧ t < opts.etol * e)

/-- `x` solves the least-squares problem of `A` and `b`. -/
def LeastSquares (A : Matrix (Fin m) (Fin n) α) (b : Fin m → α) (x : Fin n → α) : Prop :=
  ∀ y, normSq (b - A.mulVec x) ≤ normSq (b - A.mulVec y)

end Verif
