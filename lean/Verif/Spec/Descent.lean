import Verif.Spec.Solver
/-
What it means for a step of the Gauss-Newton algorithm to go downhill.
-/
set_option autoImplicit false
namespace Verif
variable {α δ : Type} [Field α]

/-- The cost of an estimate: the sum of the squares of its residuals. -/
def GN.CostAt (g : GN α δ) (x : List α) (q : α) : Prop := ∃ f, g.calcF x = .ok f ∧ q = dotp f f

/-- The solver at another estimate. -/
def GN.move (g : GN α δ) (x : List α) : GN α δ := { g with xyza := x }

/-- The gradient of the cost, as the solver computes it, is zero at the estimate. -/
def GN.Flat (g : GN α δ) (x : List α) : Prop := ∃ f grad, g.calcF x = .ok f ∧ (g.move x).getJPTx f = .ok grad ∧ ∀ e ∈ grad, e = 0

/-- The solver steps from the estimate `x` to `y = x + P z`; `u` is the product of the Jacobian at `x` with the step. -/
def GN.StepTo (g : GN α δ) (x y f z u : List α) : Prop :=
  ∃ d, g.calcF x = .ok f ∧ g.calcPx false z = .ok d ∧ npZip (· + ·) x d = .ok y ∧ (g.move x).getJPx z = .ok u ∧ z.length = x.length ∧ u.length = f.length

/-- The step from `x` to `y` goes downhill: the residuals `f` have a negative product with their change `u` along the step, and the linearised problem has a smaller cost at its
end. -/
def GN.Descends [LinearOrder α] (g : GN α δ) (x y : List α) : Prop :=
  ∃ f z u, g.StepTo x y f z u ∧ dotp f u < 0 ∧ dotp (List.zipWith (· + ·) f u) (List.zipWith (· + ·) f u) < dotp f f

/-- The point of the segment from `x` (`t = 0`) to `y` (`t = 1`). -/
def segment (x y : List α) (t : α) : List α := List.zipWith (fun a b => a + t * (b - a)) x y

/-- The residuals are a linear function of the step from `x`. -/
def GN.LinearAt (g : GN α δ) (x : List α) : Prop := ∀ y f z u, g.StepTo x y f z u → g.calcF y = .ok (List.zipWith (· + ·) f u)

end Verif
