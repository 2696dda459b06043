import Verif.Props.CovRenumber
import Verif.Props.CovMinresFilesCase
/-
C93 with the iterative solver: a concrete case.
-/
set_option autoImplicit false
namespace Verif
open Matrix
namespace Fixture

/-- The measured values of the files in the second order, by their places in the first. -/
def ordP : Fin 5 ≃ Fin 5 :=
  { toFun := ![2, 3, 0, 1, 4], invFun := ![2, 3, 0, 1, 4], left_inv := by decide, right_inv := by decide }

/-- The residuals. -/
def ordQ : Fin 6 ≃ Fin 6 :=
  { toFun := ![2, 3, 0, 1, 5, 4], invFun := ![2, 3, 0, 1, 5, 4], left_inv := by decide, right_inv := by decide }

theorem ordG_J (a1 b1 b2 a2 k1 k2 : ℝ) {l : List ℝ} (hl : l.length = 5) {J : Matrix (Fin 6) (Fin 5) ℝ}
    (hJ : (ordG ["A", "B"] [gnRef, offsetCal] [a1, b1, b2, a2] k1 k2 l).IsJacobian J) (v : Fin 5 → ℝ) : J *ᵥ v = ![v 0, v 1, v 2, v 3, -v 0 + v 4, v 3 - v 4] := by
  obtain ⟨y0, y1, y2, y3, y4, rfl⟩ := length5 hl
  have h := hJ.1 v
  have e : List.ofFn v = [v 0, v 1, v 2, v 3, v 4] := by simp [List.ofFn_succ]
  rw [e, ordG_getJPx] at h
  apply List.ofFn_injective
  rw [← Except.ok.inj h]
  simp [List.ofFn_succ]
  ring

theorem ordG_J' (a1 b1 b2 a2 k1 k2 : ℝ) {l : List ℝ} (hl : l.length = 5) {J : Matrix (Fin 6) (Fin 5) ℝ}
    (hJ : (ordG ["B", "A"] [offsetCal, gnRef] [b2, a2, a1, b1] k2 k1 l).IsJacobian J) (v : Fin 5 → ℝ) : J *ᵥ v = ![v 0, v 1, v 2, v 3, v 1 - v 4, -v 2 + v 4] := by
  obtain ⟨y0, y1, y2, y3, y4, rfl⟩ := length5 hl
  have h := hJ.1 v
  have e : List.ofFn v = [v 0, v 1, v 2, v 3, v 4] := by simp [List.ofFn_succ]
  rw [e, ordG_getJPx'] at h
  apply List.ofFn_injective
  rw [← Except.ok.inj h]
  simp [List.ofFn_succ]
  ring

end Fixture
open Fixture

/-- **C93 with the iterative solver, a case of equality.** The two files of `C93_case` in both orders: all hypotheses of `C93_renumbered` are met, the solver returns for both orders, and
the reported variances are equal. -/
theorem C93_renumbered_case (a1 b1 k1 b2 a2 k2 : ℝ) {l l' : List ℝ} (hl : l.length = 5) (hl' : l'.length = 5) {o : MinresOpts ℝ}
    (ho : o.shift = 0 ∧ 0 < o.eps ∧ o.eps ≤ 1 / 100 ∧ 0 ≤ o.cubeRootEps ∧ 0 ≤ o.rtol) (probes probes' : (n : Nat) → List (Fin n → ℝ)) (hpr : probes' 5 = (probes 5).map (· ∘ ordP)) :
    ∃ (J J' : Matrix (Fin 6) (Fin 5) ℝ) (V V' : List (List ℝ)), (ordG ["A", "B"] [gnRef, offsetCal] [a1, b1, b2, a2] k1 k2 l).IsJacobian J ∧
      (ordG ["B", "A"] [offsetCal, gnRef] [b2, a2, a1, b1] k2 k1 l').IsJacobian J' ∧ J' = J.submatrix ordQ ordP ∧ J' ≠ J ∧
      (ordG ["A", "B"] [gnRef, offsetCal] [a1, b1, b2, a2] k1 k2 l).covariance (GN.minresObject o realSqrt probes) = .ok V ∧
      (ordG ["B", "A"] [offsetCal, gnRef] [b2, a2, a1, b1] k2 k1 l').covariance (GN.minresObject o realSqrt probes') = .ok V' ∧
      (V'.getD 0 []).getD 0 0 = (V.getD 0 []).getD 0 0 := by
  obtain ⟨J, V, hJ, _, hV⟩ := ordG_minres a1 b1 b2 a2 k1 k2 hl ho probes
  obtain ⟨J', V', hJ', _, hV'⟩ := ordG_minres' a1 b1 b2 a2 k1 k2 hl' ho probes'
  have hJJ : J' = J.submatrix ordQ ordP := by
    apply matrix_of_mulVec
    intro v
    have e : v = (v ∘ ordP.symm) ∘ ordP := by funext i; simp
    rw [ordG_J' a1 b1 b2 a2 k1 k2 hl' hJ']
    conv_rhs => rw [e, submatrix_mulVec_comp', ordG_J a1 b1 b2 a2 k1 k2 hl hJ]
    funext i
    fin_cases i <;> rfl
  have hne : J' ≠ J := by
    intro h
    have h0 := ordG_J' a1 b1 b2 a2 k1 k2 hl' hJ' ![1, 0, 0, 0, 0]
    rw [h, ordG_J a1 b1 b2 a2 k1 k2 hl hJ] at h0
    have := congrFun h0 4
    simp at this
  obtain ⟨hr, hr'⟩ := ord_ready a1 b1 k1 b2 a2 k2
  refine ⟨J, J', V, V', hJ, hJ', hJJ, hne, hV, hV', ?_⟩
  exact (C93_renumbered hr hr' (ordG_solves a1 b1 b2 a2 k1 k2 hl) (ordG_solves' b2 a2 a1 b1 k2 k1 hl') rfl hJ hJ' ordQ ordP hJJ (by
    intro d hd
    have hd : 4 ≤ (d : Nat) := hd
    have h5 : (d : Nat) < 5 := d.2
    have : d = (4 : Fin 5) := Fin.ext (by show (d : Nat) = 4; omega)
    rw [this]
    rfl) hpr hV hV').2 0 0 (show 0 < 1 by omega) (show 0 < 1 by omega)

end Verif
