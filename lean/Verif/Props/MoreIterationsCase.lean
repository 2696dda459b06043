import Verif.Props.MoreIterations
import Verif.Props.LsmrCase
/-
Property C95: concrete cases.
-/
set_option autoImplicit false
namespace Verif
open Matrix
namespace Fixture

def sym3 : Matrix (Fin 2) (Fin 2) ℚ := !![3, 4; 4, 16]

theorem sym3_symm : sym3.IsSymm := by
  unfold Matrix.IsSymm; ext i j; fin_cases i <;> fin_cases j <;> rfl

theorem sym3_bounded : BoundedBelow sym3 (1 / 10 ^ 15) := by
  intro v
  simp only [normSq, sym3, Fin.sum_univ_two, Matrix.mulVec, dotProduct, Matrix.of_apply, Matrix.cons_val', Matrix.cons_val_zero, Matrix.cons_val_one, Matrix.empty_val']
  nlinarith [mul_self_nonneg (25 * v 0 + 76 * v 1), mul_self_nonneg (v 1), mul_self_nonneg (v 0), mul_self_nonneg (76 * v 0 + 272 * v 1)]

theorem sym3_pos : ∀ v, v ≠ 0 → 0 < v ⬝ᵥ (sym3 *ᵥ v) := by
  intro v hv
  have e : v ⬝ᵥ (sym3 *ᵥ v) = 2 * (v 0 * v 0) + (v 0 + 4 * v 1) * (v 0 + 4 * v 1) := by
    simp only [sym3, Fin.sum_univ_two, Matrix.mulVec, dotProduct, Matrix.of_apply, Matrix.cons_val', Matrix.cons_val_zero, Matrix.cons_val_one, Matrix.empty_val']
    ring
  rw [e]
  by_contra hn
  have h0 : v 0 = 0 := by nlinarith [mul_self_nonneg (v 0), mul_self_nonneg (v 0 + 4 * v 1)]
  have h1 : v 1 = 0 := by
    rw [h0] at hn
    nlinarith [mul_self_nonneg (v 1)]
  apply hv
  funext i
  fin_cases i
  · exact h0
  · exact h1

end Fixture
open Fixture

/-- **C95, a case (MINRES).** One iteration gives the variance 432/25 of 72, two give 72; the hypotheses of `C95_minres_limit` and `C95_minres` are met. -/
theorem C95_minres_case : ∃ st st', Minres.solve { krylovOpts 0 with itnlim := 1 } ratSqrt (fun v => .ok (sym3 *ᵥ v)) [![1, 2], ![3, 1]] ![12, 0] = .ok st ∧
    Minres.solve { krylovOpts 0 with itnlim := 2 } ratSqrt (fun v => .ok (sym3 *ᵥ v)) [![1, 2], ![3, 1]] ![12, 0] = .ok st' ∧ st.itn = 1 ∧ st'.itn = 2 ∧ st.rnorm = 48 / 5 ∧ st'.rnorm = 0 ∧
    12 * st.x 0 = 432 / 25 ∧ 12 * st'.x 0 = 72 ∧ sym3.IsSymm ∧ BoundedBelow sym3 (krylovOpts 0).eps ∧ (∀ v, v ≠ 0 → 0 < v ⬝ᵥ (sym3 *ᵥ v)) ∧ st.itn ≤ st'.itn := by
  have h : (match Minres.solve { krylovOpts 0 with itnlim := 1 } ratSqrt (fun v => .ok (sym3 *ᵥ v)) [![1, 2], ![3, 1]] ![12, 0] with
    | .ok st => decide (st.itn = 1) && decide (st.rnorm = 48 / 5) && decide (12 * st.x 0 = 432 / 25)
    | .error _ => false) = true := by decide +kernel
  have h' : (match Minres.solve { krylovOpts 0 with itnlim := 2 } ratSqrt (fun v => .ok (sym3 *ᵥ v)) [![1, 2], ![3, 1]] ![12, 0] with
    | .ok st => decide (st.itn = 2) && decide (st.rnorm = 0) && decide (12 * st.x 0 = 72)
    | .error _ => false) = true := by decide +kernel
  split at h
  · next st hst =>
    split at h'
    · next st' hst' =>
      simp only [Bool.and_eq_true, decide_eq_true_eq] at h h'
      exact ⟨st, st', hst, hst', h.1.1, h'.1.1, h.1.2, h'.1.2, h.2, h'.2, sym3_symm, sym3_bounded, sym3_pos, (C95_minres_limit (krylovOpts 0) (by omega) hst hst').1⟩
    · cases h'
  · cases h

/-- **C95, a case (LSMR).** Real equations which both solves can be run for, whatever the options: those of `C62_returns_case`, with limits of one and ten iterations. -/
theorem C95_lsmr_case {o : LsmrOpts ℝ} (hd : o.damp = 0) (hh : 0 < o.huge) : ∃ (A0 : Matrix (Fin 2) (Fin 1) ℝ) (b : Fin 2 → ℝ) (st st' : LsmrState ℝ 2 1) (x x' : Option (Fin 1 → ℝ)),
    A0ᵀ *ᵥ b ≠ 0 ∧ Lsmr.solve { o with itnlim := 1 } realSqrt (fun v => .ok (A0 *ᵥ v)) (fun u => .ok (A0ᵀ *ᵥ u)) b none = .ok (st, x) ∧
    Lsmr.solve { o with itnlim := 10 } realSqrt (fun v => .ok (A0 *ᵥ v)) (fun u => .ok (A0ᵀ *ᵥ u)) b none = .ok (st', x') ∧ st.itn ≤ st'.itn ∧ st'.normr ≤ st.normr ∧ st'.normar ≤ st.normar := by
  obtain ⟨A0, b, hb, hne⟩ := C62_returns_case
  have r : ∀ L, ∃ st x, Lsmr.solve { o with itnlim := L } realSqrt (fun v => .ok (A0 *ᵥ v)) (fun u => .ok (A0ᵀ *ᵥ u)) b none = .ok (st, x) := by
    intro L
    obtain ⟨st, x, h, _⟩ := C62_lsmr_returns hb (opts := { o with itnlim := L }) hd hh (A := fun v => .ok (A0 *ᵥ v)) (AH := fun u => .ok (A0ᵀ *ᵥ u)) (fun _ => rfl) (fun _ => rfl) none
    exact ⟨st, x, h⟩
  obtain ⟨st, x, h⟩ := r 1
  obtain ⟨st', x', h'⟩ := r 10
  have hle := (C95_lsmr_limit o (by omega) h h').1
  obtain ⟨g1, g2, _⟩ := C95_lsmr (o := { o with itnlim := 1 }) (o' := { o with itnlim := 10 }) hd hh hd hh realSqrt_spec (A := fun v => .ok (A0 *ᵥ v)) (AH := fun u => .ok (A0ᵀ *ᵥ u))
    (fun _ => rfl) (fun _ => rfl) h h' hle
  exact ⟨A0, b, st, st', x, x', hne, h, h', hle, g2, g1⟩

end Verif
