import Verif.Lemmas.GNAdj
import Mathlib.LinearAlgebra.Matrix.NonsingularInverse
import Mathlib.LinearAlgebra.Matrix.ToLin
/-
A square system given by sums over `Finset.range` has a unique solution when its kernel is trivial.
-/
set_option autoImplicit false
namespace Verif
variable {α : Type} [Field α]

theorem square_solvable {n : Nat} (Q : Nat → Nat → α)
    (hker : ∀ x : Nat → α, (∀ c, c < n → ∑ d ∈ Finset.range n, Q c d * x d = 0) → ∀ d, d < n → x d = 0) (b : Nat → α) :
    ∃ x : Nat → α, ∀ c, c < n → ∑ d ∈ Finset.range n, Q c d * x d = b c := by
  let A : Matrix (Fin n) (Fin n) α := fun c d => Q c d
  have hinj : Function.Injective A.mulVec := by
    have : Function.Injective (Matrix.mulVecLin A) := by
      rw [injective_iff_map_eq_zero]
      intro x hx
      have h := hker (fun d => if h : d < n then x ⟨d, h⟩ else 0) (by
        intro c hc
        have := congrFun hx ⟨c, hc⟩
        simp only [Matrix.mulVecLin_apply, Matrix.mulVec, dotProduct, Pi.zero_apply] at this
        rw [← this, Finset.sum_range]
        refine Finset.sum_congr rfl fun d _ => ?_
        simp [A])
      funext d
      have := h d d.2
      simpa using this
    exact this
  have hs : Function.Surjective A.mulVec := Matrix.mulVec_surjective_iff_isUnit.2 (Matrix.mulVec_injective_iff_isUnit.1 hinj)
  obtain ⟨x, hx⟩ := hs fun c => b c
  refine ⟨fun d => if h : d < n then x ⟨d, h⟩ else 0, fun c hc => ?_⟩
  have := congrFun hx ⟨c, hc⟩
  simp only [Matrix.mulVec, dotProduct] at this
  rw [← this, Finset.sum_range]
  refine Finset.sum_congr rfl fun d _ => ?_
  simp [A]

end Verif
