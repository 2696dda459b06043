import Verif.Spec.Solver
/-
What a run of the Gauss-Newton loop is.
-/
set_option autoImplicit false
namespace Verif
variable {α δ : Type}

/-- `m` is the largest absolute value in `v`. -/
def IsSupNorm [Field α] [LinearOrder α] (v : List α) (m : α) : Prop := (∃ x ∈ v, |x| = m) ∧ ∀ x ∈ v, |x| ≤ m

/-- The three tests of convergence on a line of the log: cost reduction, step, gradient. -/
def GNLogLine.Met [Field α] [LinearOrder α] (l : GNLogLine α) : Prop :=
  0 ≤ l.reduction ∧ l.reduction < l.reductionTol ∧ l.normD < l.normDTol ∧ l.normG ≤ l.normGTol

/-- One step from estimate `x.1` to estimate `y.1`, with its line of the log: `lsmr` is called on minus the residuals at `x.1`; the step `d` is the
preconditioned solution found in the solver object (which held `x.2` before). -/
def GN.Step [Field α] [LinearOrder α] (g : GN α δ) (lsmr : LsmrObject α δ) (tol : GNTol α) (x : List α × Option (List α)) (line : GNLogLine α)
    (y : List α × Option (List α)) : Prop :=
  ∃ f z d f' grad nx, g.calcF x.1 = .ok f ∧ lsmr { g with xyza := x.1 } (f.map fun r => -r) x.2 = .ok (some z) ∧ y.2 = some z ∧ g.calcPx false z = .ok d ∧
    npZip (· + ·) x.1 d = .ok y.1 ∧ g.calcF y.1 = .ok f' ∧ GN.getJPTx { g with xyza := y.1 } f' = .ok grad ∧
    line.reduction = dotp f f - dotp f' f' ∧ line.reductionTol = tol.tol * (1 + dotp f' f') ∧
    IsSupNorm d line.normD ∧ IsSupNorm y.1 nx ∧ line.normDTol = tol.root * (1 + nx) ∧
    IsSupNorm (grad.map (2 * ·)) line.normG ∧ line.normGTol = tol.cubeRoot * (1 + dotp f' f')

/-- A sequence of steps with its log. -/
def GN.Steps [Field α] [LinearOrder α] (g : GN α δ) (lsmr : LsmrObject α δ) (tol : GNTol α) :
    List α × Option (List α) → List (GNLogLine α) → List α × Option (List α) → Prop
  | x, [], y => x = y
  | x, l :: ls, y => ∃ m, g.Step lsmr tol x l m ∧ g.Steps lsmr tol m ls y

end Verif
