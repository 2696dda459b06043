import Mathlib.Algebra.BigOperators.Ring.Finset
import Mathlib.Algebra.Order.BigOperators.Ring.Finset
import Mathlib.Algebra.Order.Field.Basic
import Mathlib.Analysis.Real.Sqrt
/-
Matrices given by their rows: entries, quadratic form, positive definiteness, Cholesky factors.
-/
set_option autoImplicit false
namespace Verif
variable {α : Type}

/-- `M[i, j]`. -/
def entry [Zero α] (M : List (List α)) (i j : Nat) : α := (M.getD i []).getD j 0

/-- `M` is an `n` by `n` array. -/
def IsSquare (M : List (List α)) (n : Nat) : Prop := M.length = n ∧ ∀ r ∈ M, r.length = n

/-- `xᵀ M x` for vectors of length `n`. -/
def quadForm [Semiring α] (n : Nat) (M : List (List α)) (x : Nat → α) : α :=
  ∑ i ∈ Finset.range n, ∑ j ∈ Finset.range n, x i * entry M i j * x j

/-- `M` is symmetric and positive definite. -/
structure PosDefinite [Field α] [LinearOrder α] (n : Nat) (M : List (List α)) : Prop where
  square : IsSquare M n
  symm : ∀ i j, i < n → j < n → entry M i j = entry M j i
  pos : ∀ x : Nat → α, (∃ i, i < n ∧ x i ≠ 0) → 0 < quadForm n M x

/-- `L` is a Cholesky factor of `M`: lower triangular, positive diagonal, `L Lᵀ = M`. -/
structure CholeskyFactor (n : Nat) (M L : List (List ℝ)) : Prop where
  square : IsSquare L n
  lower : ∀ i j, i < n → i < j → j < n → entry L i j = 0
  diag : ∀ i, i < n → 0 < entry L i i
  prod : ∀ i j, i < n → j < n → ∑ l ∈ Finset.range n, entry L i l * entry L j l = entry M i j

end Verif
