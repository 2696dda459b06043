import Verif.Props.MoreDataCost
import Verif.Props.MoreDataCase
import Verif.Props.Profile
/-
Property C94: a concrete case for the least cost.
-/
set_option autoImplicit false
namespace Verif
namespace Fixture

theorem ordCase_affine (v0 v1 v2 v3 k0 k1 : ℝ) : (ordCase ["A", "B"] [gnRef, offsetCal] [v0, v1, v2, v3] k0 k1).AffineK 1
    (fun i c _ => if i = 0 ∧ c = 0 then -1 else if i = 1 ∧ c = 3 then 1 else 0) (fun i _ => if i = 0 then 1 else -1) := by
  intro v b v' b' hv hv' hb hb'
  obtain ⟨v0, v1, v2, v3, rfl⟩ : ∃ d0 d1 d2 d3, v = [d0, d1, d2, d3] := by
    match v, hv with
    | [d0, d1, d2, d3], _ => exact ⟨d0, d1, d2, d3, rfl⟩
  obtain ⟨w0, w1, w2, w3, rfl⟩ : ∃ d0 d1 d2 d3, v' = [d0, d1, d2, d3] := by
    match v', hv' with
    | [d0, d1, d2, d3], _ => exact ⟨d0, d1, d2, d3, rfl⟩
  obtain ⟨b, rfl⟩ := List.length_eq_one_iff.1 hb
  obtain ⟨b', rfl⟩ := List.length_eq_one_iff.1 hb'
  refine ⟨_, _, ord_kOf _ _ _ _ _ _ _ _ _ _ _, ord_kOf _ _ _ _ _ _ _ _ _ _ _, ?_⟩
  intro i hi
  rcases i with _ | _ | i
  · simp [MatchUp.pairing, MatchUp.numBlocks, MatchUp.blockLen, MatchUp.elem, ordCase, ordIdx, Finset.sum_range_succ]
    ring
  · simp [MatchUp.pairing, MatchUp.numBlocks, MatchUp.blockLen, MatchUp.elem, ordCase, ordIdx, Finset.sum_range_succ]
    ring
  · simp [ordCase] at hi

theorem lessCase_affine (v0 v1 k0 : ℝ) : (lessCase v0 v1 k0).AffineK 1 (fun _ c _ => if c = 0 then -1 else 0) (fun _ _ => 1) := by
  intro v b v' b' hv hv' hb hb'
  obtain ⟨v0, v1, rfl⟩ : ∃ d0 d1, v = [d0, d1] := by
    match v, hv with
    | [d0, d1], _ => exact ⟨d0, d1, rfl⟩
  obtain ⟨w0, w1, rfl⟩ : ∃ d0 d1, v' = [d0, d1] := by
    match v', hv' with
    | [d0, d1], _ => exact ⟨d0, d1, rfl⟩
  obtain ⟨b, rfl⟩ := List.length_eq_one_iff.1 hb
  obtain ⟨b', rfl⟩ := List.length_eq_one_iff.1 hb'
  refine ⟨_, _, less_kOf _ _ _ _ _ _, less_kOf _ _ _ _ _ _, ?_⟩
  intro i hi
  rcases i with _ | i
  · simp [MatchUp.pairing, MatchUp.numBlocks, MatchUp.blockLen, MatchUp.elem, lessCase, lessIdx, Finset.sum_range_succ]
    ring
  · simp [lessCase] at hi

end Fixture
open Fixture

/-- **C94, a case for the least cost.** The two files of `C94_case`, and the first of them: both have optimal parameters, the hypotheses of `C94_cost` and `C94_optimum` are met. -/
theorem C94_optimum_case (a1 b1 k1 b2 a2 k2 : ℝ) : ∃ (ms ms' : Evaluable ℝ Int) (g g' : GN ℝ Int) (best best' : List ℝ) (q q' : ℝ),
    openMatchUpWith cenv defaultAdjustment [ordF1 a1 b1 k1, ordF2 b2 a2 k2] offsetModels = .ok ms ∧ openMatchUpWith cenv defaultAdjustment [ordF1 a1 b1 k1] offsetModels = .ok ms' ∧
    ms.mu.ks.length = 2 ∧ ms'.mu.ks.length = 1 ∧ g.Solves ms ∧ g'.Solves ms' ∧ g.Optimal best q ∧ g'.Optimal best' q' ∧ q' ≤ q := by
  obtain ⟨ms, ms', g, g', _, _, _, _, _, h, h', c1, c2, hσ, hnew, hn, hn', hg, hg', _⟩ := C94_case a1 b1 k1 b2 a2 k2 0 0 0 0 0
  have e : ms = ordCase ["A", "B"] [gnRef, offsetCal] [a1, b1, b2, a2] k1 k2 := Except.ok.inj (h.symm.trans (ord_opens a1 b1 a2 b2 k1 k2))
  have e' : ms' = lessCase a1 b1 k1 := Except.ok.inj (h'.symm.trans (less_opens a1 b1 k1))
  subst e e'
  have p : g.hd.a.length = 1 := by
    have := Except.ok.inj (hg.norm.symm.trans (ordG_norm a1 b1 b2 a2 k1 k2 []))
    rw [this]
    rfl
  have p' : g'.hd.a.length = 1 := by
    have := Except.ok.inj (hg'.norm.symm.trans (lessG_norm a1 b1 k1 []))
    rw [this]
    rfl
  have hK := ordCase_affine a1 b1 b2 a2 k1 k2
  have hK' := lessCase_affine a1 b1 k1
  rw [← p] at hK
  rw [← p'] at hK'
  have hA : ∀ T A, 0 < T → A 0 0 = 1 → Identifies A T 1 := by
    intro T A hT h1 d hd j hj
    have h0 := hd 0 hT
    have : j = 0 := by omega
    subst this
    simpa [h1] using h0
  obtain ⟨best, q, _, ho, _⟩ := C90_contours (ord_ready a1 b1 k1 b2 a2 k2).1 hg hn hK (by rw [p]; exact hA _ _ (by rw [c1]; omega) (by simp))
  obtain ⟨best', q', _, ho', _⟩ := C90_contours (less_ready a1 b1 k1) hg' hn' hK' (by rw [p']; exact hA _ _ (by rw [c2]; omega) rfl)
  exact ⟨_, _, g, g', best, best', q, q', h, h', c1, c2, hg, hg', ho, ho',
    C94_optimum cenv_enum hσ hnew (ord_solvable a1 b1 k1 b2 a2 k2) (less_solvable a1 b1 k1) h h' hn hn' hg hg' ho ho'⟩
end Verif
