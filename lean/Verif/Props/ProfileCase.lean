import Verif.Props.Profile
import Verif.Props.NormalEquationsCase
/-
Property C90: a concrete case.
-/
set_option autoImplicit false
namespace Verif
open Fixture Matrix

/-- **C90, a case.** Two match-ups which no offset can fit, all uncertainties one: the hypotheses of `C90_contours` and `C90_run` are met. The best offset `m` is the mean of the two values of
reference plus K, its variance is one, the least cost with the offset `b` exceeds the least cost by `(b - m)²`, and the offset which a run returns is as near to `m` as its cost is to the
least cost. -/
theorem C90_case {r0 r1 x0 x1 k0 k1 a m : ℝ} (h1 : r0 + k0 ≠ r1 + k1) (h2 : 2 * a ≠ r0 + k0 + (r1 + k1)) (hm : 2 * m = (r0 + k0) + (r1 + k1)) {o : LsmrOpts ℝ} (hh : 0 < o.huge)
    (minres : GN ℝ Int → List ℝ → Py (List ℝ)) (tol : GNTol ℝ) :
    ∃ (g : GN ℝ Int) (res : GNResult ℝ) (q : ℝ), g = pairG r0 r1 x0 x1 k0 k1 a [r0, r1, x0, x1, a] ∧ g.run (GN.lsmrObject o realSqrt) minres tol false = .ok res ∧ g.Optimal [m] q ∧
      (∀ b, g.ProfileCost [b] (q + (b - m) ^ 2)) ∧ (res.a.getD 0 0 - m) ^ 2 ≤ res.cost - q := by
  obtain ⟨res, hrun, hst, hn⟩ := C63_case (x0 := x0) (x1 := x1) h1 h2 hh minres tol
  have hS := pairG_solves r0 r1 x0 x1 k0 k1 a (l := [r0, r1, x0, x1, a]) rfl
  have hready := pairCase_ready r0 r1 x0 x1 k0 k1 a
  have hnorm := pairCase_normalisable r0 r1 x0 x1 k0 k1 a
  have hK := pairCase_affine r0 r1 x0 x1 k0 k1 a
  have hA : Identifies (fun _ _ => 1) 2 1 := by
    intro d h j hj
    have h0 := h 0 (by omega)
    have : j = 0 := by omega
    subst this
    simpa using h0
  obtain ⟨best, q, b1, b2, b3, b4, b5⟩ := C90_contours hready hS hnorm hK hA
  have hV : propagatedCov (pairCase r0 r1 x0 x1 k0 k1 a).mu 1 (fun i c r => if c = 0 ∧ r = i then -1 else 0) (fun _ _ => 1) = 1 := by
    ext i j
    rw [pairCase_propagated]
    fin_cases i; fin_cases j
    simp
  have hbest : best = [m] := by
    obtain ⟨b, rfl⟩ := List.length_eq_one_iff.1 b1
    have e := b4 [0] _ rfl (pairCase_kOf r0 r1 x0 x1 k0 k1 a r0 r1 x0 x1 0) (⟨0, by decide⟩ : Fin 1)
    have hflat := pairG_flat (x0 := x0) (x1 := x1) (a := a) hm
    have e2 := (C89_affine hready (pairG_solves r0 r1 x0 x1 k0 k1 a (l := [(m - k0 + r0) / 2, (m - k1 + r1) / 2, x0, x1, m]) rfl) hnorm
      (pairG_smooth (l := [(m - k0 + r0) / 2, (m - k1 + r1) / 2, x0, x1, m]) (x := [(m - k0 + r0) / 2, (m - k1 + r1) / 2, x0, x1, m]) rfl) hK hA
      (by
        intro v hv h0
        obtain ⟨v0, rfl⟩ := List.length_eq_one_iff.1 hv
        have e : matTVec [[1]] [v0] = .ok [1 * v0 + 0] := rfl
        have := h0.symm.trans e
        simp [pairG, pairCase] at this
        subst this
        rfl) hflat).1 [0] _ rfl (pairCase_kOf r0 r1 x0 x1 k0 k1 a r0 r1 x0 x1 0) (⟨0, by decide⟩ : Fin 1)
    have e3 : (fun i : Fin (pairCase r0 r1 x0 x1 k0 k1 a).mu.ks.length => (pairCase r0 r1 x0 x1 k0 k1 a).mu.ks.getD i 0 - [(0 : ℝ) - r0, 0 - r1].getD i 0) =
        -kMisfit (pairCase r0 r1 x0 x1 k0 k1 a).mu [(0 : ℝ) - r0, 0 - r1] := by
      funext i
      simp [kMisfit]
    rw [e3, Matrix.mulVec_neg] at e2
    have e4 : m = b := by
      refine Eq.trans (b := _) e2 ?_
      refine Eq.trans ?_ e.symm
      exact (sub_eq_add_neg _ _).symm
    rw [e4]
  subst hbest
  refine ⟨_, res, q, rfl, hrun, b2, ?_, ?_⟩
  · intro b
    have e := b5 [b] rfl
    have e2 : parDiff 1 [b] [m] ⬝ᵥ (propagatedCov (pairCase r0 r1 x0 x1 k0 k1 a).mu 1 (fun i c r => if c = 0 ∧ r = i then -1 else 0) (fun _ _ => 1))⁻¹ *ᵥ parDiff 1 [b] [m] = (b - m) ^ 2 := by
      rw [hV, inv_one, Matrix.one_mulVec]
      simp [dotProduct, parDiff]
      ring
    exact e2 ▸ e
  · obtain ⟨best', q', c1, _, _, c2⟩ := C90_run hready hS hnorm hK hA hh realSqrt_spec hrun
    obtain ⟨rfl, rfl⟩ := b3 _ _ c1
    have e := c2 (fun _ => 1)
    have e2 : (fun _ : Fin 1 => (1 : ℝ)) ⬝ᵥ propagatedCov (pairCase r0 r1 x0 x1 k0 k1 a).mu 1 (fun i c r => if c = 0 ∧ r = i then -1 else 0) (fun _ _ => 1) *ᵥ (fun _ => 1) = 1 := by
      rw [hV, Matrix.one_mulVec]
      simp [dotProduct]
    have e3 : (fun _ : Fin 1 => (1 : ℝ)) ⬝ᵥ parDiff 1 res.a [m] = res.a.getD 0 0 - m := by
      simp [dotProduct, parDiff]
    have e4 : ((fun _ : Fin 1 => (1 : ℝ)) ⬝ᵥ parDiff 1 res.a [m]) ^ 2 ≤ ((fun _ : Fin 1 => (1 : ℝ)) ⬝ᵥ propagatedCov (pairCase r0 r1 x0 x1 k0 k1 a).mu 1 (fun i c r => if c = 0 ∧ r = i then -1 else 0)
      (fun _ _ => 1) *ᵥ (fun _ => 1)) * (res.cost - q') := e
    rw [e2, e3, one_mul] at e4
    exact e4

end Verif
