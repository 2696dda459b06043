import Verif.Spec.Measurand
import Verif.Props.SensorData
import Mathlib.Algebra.BigOperators.Group.Finset.Basic
import Mathlib.Algebra.Order.Field.Basic
/-
What the uncertainty of a measurand due to the parameters is: the law of propagation of uncertainty over the whole parameter vector.
-/
set_option autoImplicit false
namespace Verif
variable {α δ : Type} [Field α] [LinearOrder α]

/-- Element of a matrix given by its rows. -/
def elem (C : List (List α)) (i j : Nat) : α := (C.getD i []).getD j 0

/-- The matrix is square of size `n`. -/
def SquareMatrix (C : List (List α)) (n : Nat) : Prop := C.length = n ∧ ∀ row ∈ C, row.length = n

/-- A covariance matrix has no negative variances of linear combinations. -/
def NoNegativeVariance (C : List (List α)) (n : Nat) : Prop := ∀ v : Nat → α, 0 ≤ ∑ i ∈ Finset.range n, ∑ j ∈ Finset.range n, v i * elem C i j * v j

/-- `u` is the standard uncertainty of a measurand whose derivatives with respect to the parameters of the sensor `name` are `deriv`, in the order of these parameters, and whose derivatives
with respect to all other parameters are zero. `labels` tells the sensor of each parameter. -/
def PropagatedFrom (C : List (List α)) (labels : List String) (name : String) (deriv : List α) (u : α) : Prop :=
  ∃ g : Nat → α, (∀ i, i < labels.length → labels[i]? ≠ some name → g i = 0) ∧ selectBy ((List.range labels.length).map g) labels name = deriv ∧ 0 ≤ u ∧
    u * u = ∑ i ∈ Finset.range labels.length, ∑ j ∈ Finset.range labels.length, g i * elem C i j * g j

/-- `J` (given by columns) has one row per match-up, and a column for each covariate of the side and each parameter of the sensor. -/
def DerivativesOf (labels : List String) (d : Dataset α) (s : Side α) (J : List (List α)) : Prop :=
  J.length = s.m + labels.count s.name ∧ ∀ col ∈ J, col.length = d.M

/-- The uncertainties `u` of the measurand of side `s`: propagated from the parameters, or zero if the model gives no derivatives (`None`). -/
def UncertaintyOf (C : List (List α)) (labels : List String) (d : Dataset α) (s : Side α) (J : Option (List (List α))) (u : List α) : Prop :=
  u.length = d.M ∧
  match J with
  | none => ∀ x ∈ u, x = 0
  | some J => ∀ (r : Nat) (x : α), u[r]? = some x → PropagatedFrom C labels s.name ((J.drop s.m).map fun col => col.getD r 0) x

end Verif
