import Verif.Spec.Objective
import Verif.Spec.Jacobian
import Mathlib.LinearAlgebra.Matrix.NonsingularInverse
/-
Propagation of the declared uncertainties to the parameters.

K is a function of the values of the match-ups and of the parameters. To first order its errors have the covariance `diag(u_K²) + B V Bᵀ`, where `B` are the derivatives
with respect to the values and `V` is the covariance which the files declare for the values. The covariance of generalised-least-squares parameters is then
`(Aᵀ (diag(u_K²) + B V Bᵀ)⁻¹ A)⁻¹`, where `A` are the derivatives with respect to the parameters.
-/
set_option autoImplicit false
namespace Verif
variable {α δ : Type}

/-- The match-up with values `v` and parameters `a`, without track indices and times. -/
def Evaluable.withData (ms : Evaluable α δ) (v a : List α) : Evaluable α δ :=
  { ms with
    a := a
    mu := { ms.mu with
      values := v, time1 := none, time2 := none, across_track_index1 := none, across_track_index2 := none, along_track_index1 := none, along_track_index2 := none } }

/-- K for the values `v` and the parameters `a`. -/
def Evaluable.kOf [Zero α] [Sub α] (ms : Evaluable α δ) (v a : List α) : Py (List α) := evaluateK (ms.withData v a) (.num 0)

/-- `B i b r` is the derivative of the `i`th K with respect to the value at position `(b, r)`, and `A i j` that with respect to the `j`th parameter, at the values `v` and the
parameters `a`. -/
def Evaluable.KDerivatives (ms : Evaluable ℝ δ) (v a : List ℝ) (B : Nat → Nat → Nat → ℝ) (A : Nat → Nat → ℝ) : Prop :=
  ∀ dv da : List ℝ, dv.length = v.length → da.length = a.length → ∃ F : ℝ → List ℝ, (∀ t, ms.kOf (along v dv t) (along a da t) = .ok (F t)) ∧
    ∀ i, i < ms.mu.ks.length →
      HasDerivAt (fun t => (F t).getD i 0) (ms.mu.pairing (B i) (ms.mu.elem dv) + ∑ j ∈ Finset.range a.length, A i j * da.getD j 0) 0

/-- The covariance of the errors of K: its own uncertainty, and that of the values through the derivatives `B`. -/
def MatchUp.kCov [Field α] (mu : MatchUp α δ) (B : Nat → Nat → Nat → α) (i i' : Nat) : α :=
  (if i = i' then mu.unck.flatten.getD i 0 * mu.unck.flatten.getD i 0 else 0) + mu.pairing (B i) (mu.covMul (B i'))

/-- No combination of parameters is without effect on K, to first order. -/
def Identifies (A : Nat → Nat → ℝ) (T P : Nat) : Prop := ∀ d : Nat → ℝ, (∀ i, i < T → ∑ j ∈ Finset.range P, A i j * d j = 0) → ∀ j, j < P → d j = 0

/-- The covariance of K as a matrix. -/
noncomputable def kCovM (mu : MatchUp ℝ δ) (B : Nat → Nat → Nat → ℝ) : Matrix (Fin mu.ks.length) (Fin mu.ks.length) ℝ := Matrix.of fun i i' => mu.kCov B i i'

/-- The derivatives with respect to the parameters as a matrix. -/
def kParM (T P : Nat) (A : Nat → Nat → ℝ) : Matrix (Fin T) (Fin P) ℝ := Matrix.of fun i j => A i j

/-- The propagated covariance of the parameters. -/
noncomputable def propagatedCov (mu : MatchUp ℝ δ) (P : Nat) (B : Nat → Nat → Nat → ℝ) (A : Nat → Nat → ℝ) : Matrix (Fin P) (Fin P) ℝ :=
  ((kParM mu.ks.length P A).transpose * (kCovM mu B)⁻¹ * kParM mu.ks.length P A)⁻¹

end Verif
