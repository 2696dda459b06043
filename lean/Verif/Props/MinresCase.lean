import Verif.Props.MinresSol
import Mathlib.Tactic.NormNum
/-
C38, C61: concrete solves, and what goes wrong.
-/
set_option autoImplicit false
namespace Verif
variable {α : Type} [Field α] [LinearOrder α] [IsStrictOrderedRing α] {n : Nat}
open Matrix

/-- **C38, failure.** The outcome "b is an eigenvector" never stops the loop: for an exact eigenvector (of non-zero norm), and at least two iterations allowed, no
solve returns finite numbers: the second iteration divides by zero. -/
theorem C38_eigenvector_fails {M0 : Matrix (Fin n) (Fin n) α} (hM : M0.IsSymm) {opts : MinresOpts α} (heps : 0 < opts.eps)
    (hσ : BoundedBelow (M0 - opts.shift • 1) opts.eps) (hc : 0 ≤ opts.cubeRootEps) (hw : 1 ≤ opts.window) (hlim : 2 ≤ opts.itnlim)
    {sqrt : α → Py α} (hs : IsSqrt sqrt) {A : (Fin n → α) → Py (Fin n → α)} (hA : ∀ v, A v = .ok (M0 *ᵥ v)) (probes : List (Fin n → α))
    {b : Fin n → α} (hb : b ≠ 0) {c : α} (he : M0 *ᵥ b = c • b) (st : MinresState α n) : Minres.solve opts sqrt A probes b ≠ .ok st := by
  intro h
  have hpos : 0 < b ⬝ᵥ b := lt_of_le_of_ne (normSq_nonneg b) (fun h => hb (normSq_zero h.symm))
  have hnn : ¬ b ⬝ᵥ b < 0 := not_lt.2 hpos.le
  have hsym : Minres.symmetric opts A probes = .ok true := by
    unfold Minres.symmetric
    split_ifs
    · exact checkSymmetric_symm hM heps.le hc hA probes
    · rfl
  unfold Minres.solve at h
  obtain ⟨beta1, h1, h⟩ := bind_ok.1 h
  obtain ⟨sym, h2, h⟩ := bind_ok.1 h
  rw [hsym] at h2
  cases h2
  unfold Minres.beta1 at h1
  rw [if_pos hpos] at h1
  obtain ⟨b0, b1⟩ := hs _ _ h1
  have h : Minres.loop opts sqrt A beta1 opts.itnlim (Minres.start opts b 0 beta1) = .ok st := by
    simpa only [if_neg hnn, hpos, decide_true, Bool.and_self, if_true] using h
  obtain ⟨k, hk⟩ : ∃ k, opts.itnlim = k + 2 := ⟨opts.itnlim - 2, by omega⟩
  rw [hk] at h
  unfold Minres.loop at h
  have hlt : (Minres.start opts b 0 beta1).itn < opts.itnlim := by show 0 < _; omega
  rw [if_pos hlt] at h
  obtain ⟨r, ht, h⟩ := bind_ok.1 h
  have hinv := start_inv (M := M0 - opts.shift • 1) (opts := opts) hpos b0 b1
  obtain ⟨lz, beta, g1, g2, g3, g4⟩ := turn_ok ht
  obtain ⟨f1, f2, f3, f4⟩ := lanczos_eq hA hinv g1
  have hv : (M0 - opts.shift • 1) *ᵥ ((1 / beta1) • b) = (c - opts.shift) • ((1 / beta1) • b) := by
    rw [Matrix.mulVec_smul, Matrix.sub_mulVec, Matrix.smul_mulVec, Matrix.one_mulVec, he, ← sub_smul, smul_comm]
  have hu := hinv.unit f1
  rw [smul_zero, sub_zero, hv] at f3 f4
  rw [dotProduct_smul, hu, smul_eq_mul, mul_one] at f3
  rw [f3, sub_self] at f4
  have hbeta : beta = 0 := by
    obtain ⟨_, e⟩ := hs _ _ g2
    rw [f4] at e
    simpa using e
  have hist : r.1.istop = -1 ∧ r.1.beta = beta := by
    have g3' := g3
    unfold MinresState.advance at g3'
    obtain ⟨root, q1, g3'⟩ := bind_ok.1 g3'
    obtain ⟨hyp, q2, g3'⟩ := bind_ok.1 g3'
    obtain ⟨i10, q3, g3'⟩ := bind_ok.1 g3'
    obtain ⟨Anorm, q4, g3'⟩ := bind_ok.1 g3'
    obtain ⟨ynorm, q5, g3'⟩ := bind_ok.1 g3'
    obtain ⟨test1, q6, g3'⟩ := bind_ok.1 g3'
    obtain ⟨test2, q7, g3'⟩ := bind_ok.1 g3'
    rw [pure_ok] at g3'
    have hi : i10 = -1 := by
      unfold MinresState.directError at q3
      have hw' : ¬ opts.window < (Minres.start opts b 0 beta1).itn + 1 := by show ¬ _ < 0 + 1; omega
      rw [if_neg hw', pure_ok] at q3
      have h0 : (Minres.start opts b 0 beta1).itn + 1 = 1 := rfl
      have h1 : beta / beta1 ≤ 10 * opts.eps := by rw [hbeta, zero_div]; linarith
      rw [if_pos h0, if_pos h1] at q3
      exact q3.symm
    rw [← g3']
    refine ⟨?_, rfl⟩
    show minresVerdict _ i10 _ _ _ _ _ _ = _
    rw [hi]; rfl
  have hgo : r.2 = false := by rw [g4, hist.1]; rfl
  rw [hgo] at h
  simp only [Bool.false_eq_true, if_false] at h
  unfold Minres.loop at h
  have hitn := turn_itn _ r.1 r.2 ht
  have hlt2 : r.1.itn < opts.itnlim := by
    have : (Minres.start opts b 0 beta1).itn = 0 := rfl
    omega
  rw [if_pos hlt2] at h
  obtain ⟨r2, ht2, _⟩ := bind_ok.1 h
  obtain ⟨lz2, _, g5, _⟩ := turn_ok ht2
  unfold MinresState.lanczos at g5
  obtain ⟨s, g6, _⟩ := bind_ok.1 g5
  rw [hist.2, hbeta] at g6
  exact (npDiv_ok g6).1 rfl

/-! ### Concrete solves -/

namespace Fixture

/-- Square roots of squares of rationals. -/
def ratSqrt (x : ℚ) : Py ℚ :=
  let r : ℚ := (Nat.sqrt x.num.toNat : ℚ) / (Nat.sqrt x.den : ℚ)
  if 0 ≤ r ∧ r * r = x then .ok r else .error .valueError

theorem ratSqrt_spec : IsSqrt ratSqrt := by
  intro x r h
  unfold ratSqrt at h
  simp only at h
  split_ifs at h with hc
  cases h
  exact hc

def sym2 : Matrix (Fin 2) (Fin 2) ℚ := !![3, 4; 4, 5]

/-- The operator as the code calls it. -/
def sym2op (v : Fin 2 → ℚ) : Py (Fin 2 → ℚ) := .ok (sym2 *ᵥ v)

def krylovOpts (itnlim : Nat) : MinresOpts ℚ :=
  { shift := 0, check := true, itnlim := itnlim, rtol := 1 / 10 ^ 6, etol := 1 / 10 ^ 6, window := 5, eps := 1 / 10 ^ 15, cubeRootEps := 1 / 10 ^ 5 }

theorem sym2_symm : sym2.IsSymm := by
  unfold Matrix.IsSymm; ext i j; fin_cases i <;> fin_cases j <;> rfl

theorem sym2_bounded : BoundedBelow (sym2 - (0 : ℚ) • 1) (1 / 10 ^ 15) := by
  intro v
  simp only [zero_smul, sub_zero, normSq, sym2, Fin.sum_univ_two, Matrix.mulVec, dotProduct, Matrix.of_apply, Matrix.cons_val', Matrix.cons_val_zero,
    Matrix.cons_val_one, Matrix.empty_val']
  nlinarith [mul_self_nonneg (25 * v 0 + 32 * v 1), mul_self_nonneg (v 1), mul_self_nonneg (v 0), mul_self_nonneg (32 * v 0 + 41 * v 1)]

end Fixture
open Fixture

/-- A solve of two equations stopped after one iteration: the hypotheses of C61 hold, the iterate is not zero and the residual has been reduced. -/
theorem C61_case : ∃ st, Minres.solve (krylovOpts 1) ratSqrt sym2op [![1, 2], ![3, 1]] ![12, 0] = .ok st ∧ st.itn = 1 ∧ st.istop = 6 ∧ st.rnorm = 48 / 5 ∧ st.x 0 = 36 / 25 ∧
    sym2.IsSymm ∧ BoundedBelow (sym2 - (krylovOpts 1).shift • 1) (krylovOpts 1).eps := by
  have h : (match Minres.solve (krylovOpts 1) ratSqrt sym2op [![1, 2], ![3, 1]] ![12, 0] with
    | .ok st => decide (st.itn = 1) && decide (st.istop = 6) && decide (st.rnorm = 48 / 5) && decide (st.x 0 = 36 / 25)
    | .error _ => false) = true := by decide +kernel
  split at h
  · next st hst =>
    simp only [Bool.and_eq_true, decide_eq_true_eq] at h
    exact ⟨st, hst, h.1.1.1, h.1.1.2, h.1.2, h.2, sym2_symm, sym2_bounded⟩
  · cases h

/-- A real problem meeting the hypotheses of `C61_minres_returns`. -/
theorem C61_returns_case : ∃ (M : Matrix (Fin 2) (Fin 2) ℝ) (b : Fin 2 → ℝ), M.IsSymm ∧ BoundedBelow (M - (0 : ℝ) • 1) (1 / 10 ^ 15) ∧
    FarFromEigenvector (M - (0 : ℝ) • 1) b (1 / 10 ^ 15) := by
  refine ⟨!![3, 4; 4, 5], ![12, 0], ?_, ?_, ?_⟩
  · unfold Matrix.IsSymm; ext i j; fin_cases i <;> fin_cases j <;> rfl
  · intro v
    simp only [zero_smul, sub_zero, normSq, Fin.sum_univ_two, Matrix.mulVec, dotProduct, Matrix.of_apply, Matrix.cons_val', Matrix.cons_val_zero,
      Matrix.cons_val_one, Matrix.empty_val']
    nlinarith [mul_self_nonneg (25 * v 0 + 32 * v 1), mul_self_nonneg (v 1), mul_self_nonneg (v 0), mul_self_nonneg (32 * v 0 + 41 * v 1)]
  · intro c
    simp only [zero_smul, sub_zero, normSq, Fin.sum_univ_two, Matrix.mulVec, dotProduct, Matrix.of_apply, Matrix.cons_val', Matrix.cons_val_zero,
      Matrix.cons_val_one, Matrix.empty_val', Pi.sub_apply, Pi.smul_apply, smul_eq_mul]
    nlinarith [mul_self_nonneg (3 * 12 - c * 12)]

/-- **C38, failure.** Outcome 1, "a solution was found, given rtol", after one iteration with a residual of four fifths of the right-hand side, `rtol` being a millionth:
the estimate of the norm of the matrix contains the norm of the right-hand side, so that the test depends on the scale of `b`. For the smaller right-hand side of
`C61_case` (same direction) the same test fails. -/
theorem C38_scale_fails : ∃ (b : Fin 2 → ℚ) (st : MinresState ℚ 2), Minres.solve (krylovOpts 500) ratSqrt sym2op [![1, 2], ![3, 1]] b = .ok st ∧
    b 1 = 0 ∧ 0 < b 0 ∧ st.istop = 1 ∧ st.converged = true ∧ st.itn = 1 ∧ 25 * normSq (b - sym2 *ᵥ st.x) = 16 * normSq b ∧ (krylovOpts 500).rtol = 1 / 10 ^ 6 := by
  have h : (match Minres.solve (krylovOpts 500) ratSqrt sym2op [![1, 2], ![3, 1]] ![5 * (10 ^ 14 - 1) / (2 * 10 ^ 7), 0] with
    | .ok st => decide (st.itn = 1) && decide (st.istop = 1) && decide (25 * normSq (![5 * (10 ^ 14 - 1) / (2 * 10 ^ 7), 0] - sym2 *ᵥ st.x) =
        16 * normSq (![5 * (10 ^ 14 - 1) / (2 * 10 ^ 7), 0] : Fin 2 → ℚ))
    | .error _ => false) = true := by decide +kernel
  split at h
  · next st hst =>
    simp only [Bool.and_eq_true, decide_eq_true_eq] at h
    exact ⟨_, st, hst, rfl, by norm_num, h.1.2, by unfold MinresState.converged; rw [h.1.2]; decide, h.1.1, h.2, rfl⟩
  · cases h

/-- **C61 without its condition.** For a singular matrix the reported residual norm can be zero although the residual is not: the rotation is clamped to `eps`. -/
theorem C61_singular_fails : ∃ st : MinresState ℚ 1, Minres.solve (krylovOpts 1) ratSqrt (fun v => .ok ((0 : Matrix (Fin 1) (Fin 1) ℚ) *ᵥ v)) [] ![1] = .ok st ∧
    st.itn = 1 ∧ st.istop = -1 ∧ st.rnorm = 0 ∧ normSq (![1] - (0 : Matrix (Fin 1) (Fin 1) ℚ) *ᵥ st.x) = 1 := by
  have h : (match Minres.solve (krylovOpts 1) ratSqrt (fun v => .ok ((0 : Matrix (Fin 1) (Fin 1) ℚ) *ᵥ v)) [] ![1] with
    | .ok st => decide (st.itn = 1) && decide (st.istop = -1) && decide (st.rnorm = 0) && decide (normSq (![1] - (0 : Matrix (Fin 1) (Fin 1) ℚ) *ᵥ st.x) = 1)
    | .error _ => false) = true := by decide +kernel
  split at h
  · next st hst =>
    simp only [Bool.and_eq_true, decide_eq_true_eq] at h
    exact ⟨st, hst, h.1.1.1, h.1.1.2, h.1.2, h.2⟩
  · cases h

/-- **C61, a failed symmetry test.** The object then reports a zero residual norm for the zero vector, whatever the right-hand side. -/
theorem C61_asymmetric_reports_zero {opts : MinresOpts α} {sqrt : α → Py α} {A : (Fin n → α) → Py (Fin n → α)} {probes : List (Fin n → α)} {b : Fin n → α}
    {st : MinresState α n} (hsym : Minres.symmetric opts A probes = .ok false) (h : Minres.solve opts sqrt A probes b = .ok st) :
    st.istop = 7 ∧ st.x = 0 ∧ st.rnorm = 0 ∧ st.converged = false := by
  unfold Minres.solve at h
  obtain ⟨beta1, h1, h⟩ := bind_ok.1 h
  rw [hsym] at h
  cases h
  exact ⟨rfl, rfl, rfl, rfl⟩

end Verif
