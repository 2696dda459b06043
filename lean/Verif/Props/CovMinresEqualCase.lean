import Verif.Props.CovMinresEqual
import Verif.Props.CovMinresFilesCase
/-
C93 with the iterative solver: a concrete case of equality for files.
-/
set_option autoImplicit false
namespace Verif
open Matrix Fixture

/-- **C93 with the iterative solver, a case.** The two files of `C93_case` in both orders, any estimate: a corresponding estimate exists, the solver returns for both orders, whichever vectors
the symmetry tests draw, and the reported variances are equal. -/
theorem C93_covariance_case (a1 b1 k1 b2 a2 k2 y0 y1 y2 y3 y4 : ℝ) {o : MinresOpts ℝ} (ho : o.shift = 0 ∧ 0 < o.eps ∧ o.eps ≤ 1 / 100 ∧ 0 ≤ o.cubeRootEps ∧ 0 ≤ o.rtol)
    (probes probes' : (n : Nat) → List (Fin n → ℝ)) : ∃ (ms ms' : Evaluable ℝ Int) (g g' : GN ℝ Int) (est est' : Evaluable ℝ Int) (σ : Nat → Nat) (V V' : List (List ℝ)),
    openMatchUpWith cenv defaultAdjustment [ordF1 a1 b1 k1, ordF2 b2 a2 k2] offsetModels = .ok ms ∧
    openMatchUpWith cenv defaultAdjustment [ordF2 b2 a2 k2, ordF1 a1 b1 k1] offsetModels = .ok ms' ∧ ms.mu.idx.sensors = ["A", "B"] ∧ ms'.mu.idx.sensors = ["B", "A"] ∧
    g.Solves ms ∧ g'.Solves ms' ∧ g.xyza = [y0, y1, y2, y3, y4] ∧
    g.EstimateIs est ∧ g'.EstimateIs est' ∧ SameEstimates [ordF1 a1 b1 k1, ordF2 b2 a2 k2] [ordF2 b2 a2 k2, ordF1 a1 b1 k1] σ ms.mu ms'.mu est.mu.values est'.mu.values ∧
    g.covariance (GN.minresObject o realSqrt probes) = .ok V ∧ g'.covariance (GN.minresObject o realSqrt probes') = .ok V' ∧
    (V'.getD 0 []).getD 0 0 = (V.getD 0 []).getD 0 0 := by
  have hf := ord_solvable a1 b1 k1 b2 a2 k2
  have h : openMatchUpWith cenv defaultAdjustment [ordF1 a1 b1 k1, ordF2 b2 a2 k2] offsetModels = .ok _ := ord_opens a1 b1 a2 b2 k1 k2
  have h' : openMatchUpWith cenv defaultAdjustment [ordF2 b2 a2 k2, ordF1 a1 b1 k1] offsetModels = .ok _ := ord_opens' a1 b1 a2 b2 k1 k2
  obtain ⟨hr, hr'⟩ := ord_ready a1 b1 k1 b2 a2 k2
  have hp : [ordF1 a1 b1 k1, ordF2 b2 a2 k2].Perm [ordF2 b2 a2 k2, ordF1 a1 b1 k1] := List.Perm.swap _ _ _
  have hσ : Reordered [ordF1 a1 b1 k1, ordF2 b2 a2 k2] [ordF2 b2 a2 k2, ordF1 a1 b1 k1] (fun i => 1 - i) := by
    refine ⟨rfl, ?_, ?_, ?_⟩
    · intro i hi
      show 1 - i < 2
      omega
    · intro i j hi hj he
      have hi' : i < 2 := hi
      have hj' : j < 2 := hj
      have he' : 1 - i = 1 - j := he
      omega
    · intro i hi
      rcases i with _ | _ | i
      · rfl
      · rfl
      · exact absurd hi (by simp)
  have hn : (ordCase ["A", "B"] [gnRef, offsetCal] [a1, b1, b2, a2] k1 k2).mu.Normalisable := by
    refine ⟨hr.wf, rfl, rfl, ?_, ?_⟩
    · intro b n u hu hb
      have hb4 : u ∈ List.replicate 4 ({ unc := .independent [1], uS_i := none } : UncBlock ℝ) := List.mem_of_getElem? hu
      have hn1 : n ∈ List.replicate 4 1 := List.mem_of_getElem? hb
      rw [(List.mem_replicate.1 hb4).2, (List.mem_replicate.1 hn1).2]
      exact .inl ⟨[1], rfl, by simp, .inl rfl⟩
    · simp [ordCase]
  have hg := ordG_solves a1 b1 b2 a2 k1 k2 (l := [y0, y1, y2, y3, y4]) rfl
  have hg0 := ordG_solves' b2 a2 a1 b1 k2 k1 (l := [y0, y1, y2, y3, y4]) rfl
  obtain ⟨N, n, hs⟩ := hg.setup hr
  obtain ⟨t1, t2, t3⟩ := hs.sizes
  obtain ⟨est, hest0, _⟩ := estimate_ok hs hs.xlen
  have hest : (ordG ["A", "B"] [gnRef, offsetCal] [a1, b1, b2, a2] k1 k2 [y0, y1, y2, y3, y4]).EstimateIs est := by
    unfold GN.EstimateIs
    rw [t1, t3]
    exact hest0
  obtain ⟨x, est', hg', hest', hsame, hpar⟩ := C93_corresponding cenv_enum hp hσ hf h h' hn hg hg0 hest
  have hxl : x.length = 5 := hg'.xyza
  have hg'' : ({ ordG ["B", "A"] [offsetCal, gnRef] [b2, a2, a1, b1] k2 k1 [y0, y1, y2, y3, y4] with xyza := x } : GN ℝ Int) =
    ordG ["B", "A"] [offsetCal, gnRef] [b2, a2, a1, b1] k2 k1 x := rfl
  rw [hg''] at hg' hest'
  obtain ⟨J, V, hJ, hbd, hV⟩ := ordG_minres a1 b1 b2 a2 k1 k2 (l := [y0, y1, y2, y3, y4]) rfl ho probes
  obtain ⟨J', V', hJ', hbd', hV'⟩ := ordG_minres' a1 b1 b2 a2 k1 k2 hxl ho probes'
  have hsm := ordG_smooth (l := [y0, y1, y2, y3, y4]) rfl hr
  have hsm' := ordG_smooth' hxl hr'
  exact ⟨_, _, _, _, est, est', _, V, V', h, h', rfl, rfl, hg, hg', rfl, hest, hest', hsame, hV, hV',
    (C93_covariance cenv_enum hp hσ hf h h' hn hr hg hg' hsm hsm' hest hest' hsame hpar rfl ⟨ho.2.1.le, ho.2.2.2.1⟩ hV hV').2 0 0 (show 0 < 1 by omega) (show 0 < 1 by omega)⟩

end Verif
