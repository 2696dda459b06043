import Verif.Props.Rotation
import Verif.Props.MoreIterationsCase
import Mathlib.LinearAlgebra.Matrix.ToLin
/-
Property C97: concrete cases.
-/
set_option autoImplicit false
namespace Verif
open Matrix
namespace Fixture

/-- A rotation of the plane (cosine 3/5, sine 4/5). -/
def turn34 : Matrix (Fin 2) (Fin 2) ℚ := !![3 / 5, -(4 / 5); 4 / 5, 3 / 5]

/-- The matrix `sym3` in the turned axes: `turn34 * sym3 * turn34ᵀ`. -/
def sym3Turned : Matrix (Fin 2) (Fin 2) ℚ := !![187 / 25, -(184 / 25); -(184 / 25), 288 / 25]

end Fixture
open Fixture

/-- **C97, a case (axes).** Turning the axes: the hypotheses of `C97_minres` are met, the matrix and the right hand side are different ones, and the solution of one iteration and of two
are the turned ones. -/
theorem C97_turned_case : IsRotation (Matrix.mulVecLin turn34) ∧ (∀ v, (Except.ok (sym3Turned *ᵥ Matrix.mulVecLin turn34 v) : Py (Fin 2 → ℚ)) = (Except.ok (sym3 *ᵥ v) : Py (Fin 2 → ℚ)).map (Matrix.mulVecLin turn34)) ∧
    sym3Turned ≠ sym3 ∧ ∃ st st', Minres.solve { krylovOpts 0 with itnlim := 1 } ratSqrt (fun v => .ok (sym3 *ᵥ v)) [![1, 2], ![3, 1]] ![12, 0] = .ok st ∧
      Minres.solve { krylovOpts 0 with itnlim := 1 } ratSqrt (fun v => .ok (sym3Turned *ᵥ v)) ([![1, 2], ![3, 1]].map (Matrix.mulVecLin turn34)) (Matrix.mulVecLin turn34 ![12, 0]) = .ok st' ∧
      st'.x = Matrix.mulVecLin turn34 st.x ∧ st'.itn = 1 ∧ st'.rnorm = 48 / 5 ∧ st'.istop = st.istop := by
  have h1 : IsRotation (Matrix.mulVecLin turn34) := by
    intro u v
    simp only [Matrix.mulVecLin_apply, turn34, Fin.sum_univ_two, Matrix.mulVec, dotProduct, Matrix.of_apply, Matrix.cons_val', Matrix.cons_val_zero, Matrix.cons_val_one,
      Matrix.empty_val']
    ring
  have h2 : ∀ v, (Except.ok (sym3Turned *ᵥ Matrix.mulVecLin turn34 v) : Py (Fin 2 → ℚ)) = (Except.ok (sym3 *ᵥ v) : Py (Fin 2 → ℚ)).map (Matrix.mulVecLin turn34) := by
    intro v
    refine congrArg Except.ok ?_
    funext i
    fin_cases i <;>
      simp only [Matrix.mulVecLin_apply, turn34, sym3, sym3Turned, Fin.sum_univ_two, Matrix.mulVec, dotProduct, Matrix.of_apply, Matrix.cons_val', Matrix.cons_val_zero,
        Matrix.cons_val_one, Matrix.empty_val', Fin.zero_eta, Fin.mk_one] <;> ring
  refine ⟨h1, h2, fun h => absurd (congrFun (congrFun h 0) 0) (by decide +kernel), ?_⟩
  obtain ⟨st, _, hst, _, i1, _, r1, _⟩ := C95_minres_case
  have k := C97_minres h1 (opts := { krylovOpts 0 with itnlim := 1 }) (sqrt := ratSqrt) (A := fun v => .ok (sym3 *ᵥ v)) (A' := fun v => .ok (sym3Turned *ᵥ v)) h2 [![1, 2], ![3, 1]] ![12, 0]
  rw [hst] at k
  exact ⟨st, _, hst, k, rfl, i1, r1, rfl⟩

/-- **C97, a case (numbering).** The two parameters in the other order: the matrix and the right hand side are different ones, the solution is the same in the other order. -/
theorem C97_order_case : sym3.submatrix (Equiv.swap 0 1) (Equiv.swap 0 1) ≠ sym3 ∧
    ∃ st st', Minres.solve { krylovOpts 0 with itnlim := 1 } ratSqrt (fun v => .ok (sym3 *ᵥ v)) [![1, 2], ![3, 1]] ![12, 0] = .ok st ∧
      Minres.solve { krylovOpts 0 with itnlim := 1 } ratSqrt (fun v => .ok (sym3.submatrix (Equiv.swap 0 1) (Equiv.swap 0 1) *ᵥ v)) ([![1, 2], ![3, 1]].map (· ∘ Equiv.swap 0 1))
        (![12, 0] ∘ Equiv.swap 0 1) = .ok st' ∧ 12 * st.x 0 = 432 / 25 ∧ 12 * st'.x 1 = 432 / 25 := by
  refine ⟨fun h => absurd (congrFun (congrFun h 0) 0) (by decide +kernel), ?_⟩
  obtain ⟨st, _, hst, _, _, _, _, _, x1, _⟩ := C95_minres_case
  obtain ⟨st', h', hx, _⟩ := C97_minres_order _ _ _ (Equiv.swap 0 1) _ _ _ hst
  refine ⟨st, st', hst, h', x1, ?_⟩
  rw [hx]
  exact x1

/-- **C97, a case (LSMR).** Real equations with a solution which is not zero, and the same equations in the other order. -/
theorem C97_lsmr_case {o : LsmrOpts ℝ} (hd : o.damp = 0) (hh : 0 < o.huge) : ∃ (A0 : Matrix (Fin 2) (Fin 1) ℝ) (b : Fin 2 → ℝ) (st st' : LsmrState ℝ 2 1) (x : Option (Fin 1 → ℝ)),
    A0ᵀ *ᵥ b ≠ 0 ∧ Lsmr.solve o realSqrt (fun v => .ok (A0 *ᵥ v)) (fun u => .ok (A0ᵀ *ᵥ u)) b none = .ok (st, x) ∧
    Lsmr.solve o realSqrt (fun v => .ok (A0.submatrix (Equiv.swap 0 1) (Equiv.refl _) *ᵥ v)) (fun u => .ok ((A0.submatrix (Equiv.swap 0 1) (Equiv.refl _))ᵀ *ᵥ u)) (b ∘ Equiv.swap 0 1) none =
      .ok (st', x) ∧ st'.x = st.x ∧ st'.itn = st.itn ∧ st'.normr = st.normr := by
  obtain ⟨A0, b, hb, hne⟩ := C62_returns_case
  obtain ⟨st, x, h, _⟩ := C62_lsmr_returns hb (opts := o) hd hh (A := fun v => .ok (A0 *ᵥ v)) (AH := fun u => .ok (A0ᵀ *ᵥ u)) (fun _ => rfl) (fun _ => rfl) none
  obtain ⟨st', h', e1, e2, _, e4, _⟩ := C97_lsmr_order o realSqrt A0 (Equiv.swap 0 1) (Equiv.refl _) b none st x h
  refine ⟨A0, b, st, st', x, hne, h, ?_, e1, e2, e4⟩
  have hx : x.map (· ∘ (Equiv.refl (Fin 1))) = x := by cases x <;> rfl
  rw [hx] at h'
  exact h'

end Verif
