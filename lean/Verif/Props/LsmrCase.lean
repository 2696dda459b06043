import Verif.Props.LsmrTotal
import Verif.Props.MinresCase
/-
C38, C62: concrete LSMR solves.
-/
set_option autoImplicit false
namespace Verif
open Matrix
namespace Fixture

def lsmrOpts (itnlim : Nat) : LsmrOpts ℚ :=
  { damp := 0, atol := 1 / 10 ^ 6, btol := 1 / 10 ^ 6, conlim := 10 ^ 8, itnlim := itnlim, etol := 1 / 10 ^ 6, window := 5, huge := 10 ^ 100 }

/-- Three equations, two unknowns. -/
def tall : Matrix (Fin 3) (Fin 2) ℚ := !![560, 0; 588, 841; 0, 1]

/-- Two equations, one unknown. -/
def col2 : Matrix (Fin 2) (Fin 1) ℚ := !![3; 4]

end Fixture
open Fixture

/-- A solve of three equations in two unknowns stopped after one iteration: the hypotheses of C62 hold, and the gradient has been reduced but not to zero. -/
theorem C62_case : ∃ st x, Lsmr.solve (lsmrOpts 1) ratSqrt (fun v => .ok (tall *ᵥ v)) (fun u => .ok (tallᵀ *ᵥ u)) ![145, 0, 0] none = .ok (st, x) ∧ st.itn = 1 ∧ st.istop = 7 ∧
    st.normar ≠ 0 ∧ st.x ≠ 0 ∧ normSq (tallᵀ *ᵥ (![145, 0, 0] - tall *ᵥ st.x)) < normSq (tallᵀ *ᵥ ![145, 0, 0]) ∧ (lsmrOpts 1).damp = 0 ∧ 0 < (lsmrOpts 1).huge ∧ IsSqrt ratSqrt := by
  have h : (match Lsmr.solve (lsmrOpts 1) ratSqrt (fun v => .ok (tall *ᵥ v)) (fun u => .ok (tallᵀ *ᵥ u)) ![145, 0, 0] none with
    | .ok (st, _) => decide (st.itn = 1) && decide (st.istop = 7) && decide (st.normar ≠ 0) && decide (st.x 0 ≠ 0) &&
        decide (normSq (tallᵀ *ᵥ (![145, 0, 0] - tall *ᵥ st.x)) < normSq (tallᵀ *ᵥ ![145, 0, 0]))
    | .error _ => false) = true := by decide +kernel
  split at h
  · next st x hst =>
    simp only [Bool.and_eq_true, decide_eq_true_eq] at h
    exact ⟨st, x, hst, h.1.1.1.1, h.1.1.1.2, h.1.1.2, fun hx => h.1.2 (by rw [hx]; rfl), h.2, rfl, by decide +kernel, ratSqrt_spec⟩
  · cases h

/-- A complete solve: the least-squares solution of two equations in one unknown, the residual of which is not zero. -/
theorem C62_solution_case : ∃ st x, Lsmr.solve (lsmrOpts 10) ratSqrt (fun v => .ok (col2 *ᵥ v)) (fun u => .ok (col2ᵀ *ᵥ u)) ![5, 0] none = .ok (st, x) ∧ st.itn = 1 ∧ st.istop = 2 ∧
    st.normar = 0 ∧ st.normr = 4 ∧ st.x 0 = 3 / 5 := by
  have h : (match Lsmr.solve (lsmrOpts 10) ratSqrt (fun v => .ok (col2 *ᵥ v)) (fun u => .ok (col2ᵀ *ᵥ u)) ![5, 0] none with
    | .ok (st, _) => decide (st.itn = 1) && decide (st.istop = 2) && decide (st.normar = 0) && decide (st.normr = 4) && decide (st.x 0 = 3 / 5)
    | .error _ => false) = true := by decide +kernel
  split at h
  · next st x hst =>
    simp only [Bool.and_eq_true, decide_eq_true_eq] at h
    exact ⟨st, x, hst, h.1.1.1.1, h.1.1.1.2, h.1.1.2, h.1.2, h.2⟩
  · cases h

/-- Real equations which meet the hypothesis of `C62_lsmr_returns`, with a gradient which is not zero. -/
theorem C62_returns_case : ∃ (A0 : Matrix (Fin 2) (Fin 1) ℝ) (b : Fin 2 → ℝ), (∀ y, A0 *ᵥ y ≠ b) ∧ A0ᵀ *ᵥ b ≠ 0 := by
  refine ⟨!![3; 4], ![5, 0], fun y h => ?_, fun h => ?_⟩
  · have h0 := congrFun h 0
    have h1 := congrFun h 1
    simp [Matrix.mulVec, dotProduct] at h0 h1
    rw [h1] at h0
    norm_num at h0
  · have h0 := congrFun h 0
    simp [Matrix.mulVec, dotProduct] at h0

/-- An equation with an exact solution: `2 y = 3`. It meets the hypotheses of `C62_consistent_fails`. -/
theorem C62_consistent_case : ∀ r, Lsmr.solve (lsmrOpts 10) ratSqrt (fun v => .ok ((!![2] : Matrix (Fin 1) (Fin 1) ℚ) *ᵥ v))
    (fun u => .ok ((!![2] : Matrix (Fin 1) (Fin 1) ℚ)ᵀ *ᵥ u)) ![3] none ≠ .ok r := by
  refine C62_consistent_fails (A0 := !![2]) (c := 1 / 4) rfl (by decide +kernel) (by decide) ratSqrt_spec (fun _ => rfl) (fun _ => rfl) ?_ ?_ none
  · decide +kernel
  · decide +kernel

end Verif
