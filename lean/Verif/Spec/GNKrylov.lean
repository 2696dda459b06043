import Verif.Model.GNKrylov
import Verif.Spec.Krylov
/-
What a step of the Gauss-Newton algorithm must be.
-/
set_option autoImplicit false
namespace Verif
variable {α δ : Type} [Field α]
open Matrix

/-- `J` is the matrix of the products with the Jacobian and its transpose at the current estimate, preconditioner included. -/
def GN.IsJacobian {m n : Nat} (g : GN α δ) (J : Matrix (Fin m) (Fin n) α) : Prop :=
  (∀ v, g.getJPx (List.ofFn v) = .ok (List.ofFn (J *ᵥ v))) ∧ ∀ u, g.getJPTx (List.ofFn u) = .ok (List.ofFn (Jᵀ *ᵥ u))

variable [LinearOrder α]

/-- For residuals `f` and Jacobian `J`: for some number of iterations, `z` lies in the Krylov space of the normal equations, and no vector of that space gives the
linearised problem a smaller gradient. -/
def BestStep {m n : Nat} (J : Matrix (Fin m) (Fin n) α) (f : Fin m → α) (z : Fin n → α) : Prop :=
  ∃ k ≤ n, 1 ≤ k ∧ z ∈ krylov (Jᵀ * J) (Jᵀ *ᵥ f) k ∧ ∀ w ∈ krylov (Jᵀ * J) (Jᵀ *ᵥ f) k, normSq (Jᵀ *ᵥ (f + J *ᵥ z)) ≤ normSq (Jᵀ *ᵥ (f + J *ᵥ w))

/-- A step from the estimate `x.1` to `y.1`, in a problem with `m` residuals and `n` unknowns; `x.2` and `y.2` are what the solver object holds before and after. When the
gradient at the estimate is not zero, the step is the best one. When it is zero, the step is the one made before. -/
def GN.LsmrStep (g : GN α δ) (m n : Nat) (x y : List α × Option (List α)) : Prop :=
  ∃ (J : Matrix (Fin m) (Fin n) α) (f : Fin m → α) (z d : Fin n → α), ({ g with xyza := x.1 } : GN α δ).IsJacobian J ∧ g.calcF x.1 = .ok (List.ofFn f) ∧
    y.2 = some (List.ofFn z) ∧ g.calcPx false (List.ofFn z) = .ok (List.ofFn d) ∧ y.1 = List.ofFn (fun i : Fin n => x.1.getD i 0 + d i) ∧
    (Jᵀ *ᵥ f ≠ 0 → BestStep J f z) ∧ (Jᵀ *ᵥ f = 0 → y.2 = x.2)

/-- So many steps. -/
def GN.LsmrSteps (g : GN α δ) (m n : Nat) : Nat → List α × Option (List α) → List α × Option (List α) → Prop
  | 0, x, y => x = y
  | k + 1, x, y => ∃ w, g.LsmrStep m n x w ∧ g.LsmrSteps m n k w y

end Verif
