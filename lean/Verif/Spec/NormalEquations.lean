import Verif.Spec.Propagation
import Verif.Spec.Descent
/-
The conditions for an optimum of the errors-in-variables problem: minimise `(v - v₀)ᵀ V⁻¹ (v - v₀) + Σ ((K(v, a) - k) / u)²` over the values `v` and the parameters `a`, where `v₀`, `k`
are the values and K of the files, and `V`, `u` their declared uncertainties.
-/
set_option autoImplicit false
namespace Verif
variable {α δ : Type}

/-- With multipliers `l`, one for each match-up: `u² l = K(v, a) - k`, `v = v₀ - V Bᵀ l`, `Aᵀ l = 0`. -/
structure Evaluable.NormalEquations [Field α] (ms : Evaluable α δ) (v a : List α) (B : Nat → Nat → Nat → α) (A : Nat → Nat → α) (l : Nat → α) : Prop where
  ks : ∃ k, ms.kOf v a = .ok k ∧ ∀ i, i < ms.mu.ks.length → ms.mu.unck.flatten.getD i 0 * ms.mu.unck.flatten.getD i 0 * l i = k.getD i 0 - ms.mu.ks.getD i 0
  values : ∀ b r, b < ms.mu.numBlocks → r < ms.mu.blockLen b →
    ms.mu.elem v b r = ms.mu.elem ms.mu.values b r - ms.mu.covMul (fun b' r' => ∑ i ∈ Finset.range ms.mu.ks.length, l i * B i b' r') b r
  parameters : ∀ j, j < a.length → ∑ i ∈ Finset.range ms.mu.ks.length, l i * A i j = 0

/-- K is an affine function of values and parameters: with constant derivatives `B`, `A`. -/
def Evaluable.AffineK (ms : Evaluable ℝ δ) (P : Nat) (B : Nat → Nat → Nat → ℝ) (A : Nat → Nat → ℝ) : Prop :=
  ∀ v a v' a' : List ℝ, v.length = ms.mu.values.length → v'.length = ms.mu.values.length → a.length = P → a'.length = P →
    ∃ k k', ms.kOf v a = .ok k ∧ ms.kOf v' a' = .ok k' ∧ ∀ i, i < ms.mu.ks.length →
      k'.getD i 0 - k.getD i 0 = ms.mu.pairing (B i) (fun b r => ms.mu.elem v' b r - ms.mu.elem v b r) + ∑ j ∈ Finset.range P, A i j * (a'.getD j 0 - a.getD j 0)

/-- The generalised-least-squares estimator: the matrix which takes the differences between the K of the files and those for the values of the files and given parameters to the
change of the parameters. -/
noncomputable def glsEstimator (mu : MatchUp ℝ δ) (P : Nat) (B : Nat → Nat → Nat → ℝ) (A : Nat → Nat → ℝ) : Matrix (Fin P) (Fin mu.ks.length) ℝ :=
  propagatedCov mu P B A * (kParM mu.ks.length P A).transpose * (kCovM mu B)⁻¹

end Verif
