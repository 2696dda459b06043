import Verif.Props.NormalEquations
import Verif.Props.PropagationCase
/-
Property C89: a concrete case, and a reference with a systematic uncertainty, for which the solver's gradient is zero where the normal equations do not hold.
-/
set_option autoImplicit false
namespace Verif
namespace Fixture

theorem pairCase_affine (r0 r1 x0 x1 k0 k1 a : ℝ) : (pairCase r0 r1 x0 x1 k0 k1 a).AffineK 1 (fun i c r => if c = 0 ∧ r = i then -1 else 0) (fun _ _ => 1) := by
  intro v b v' b' hv hv' hb hb'
  obtain ⟨v0, v1, v2, v3, rfl⟩ : ∃ d0 d1 d2 d3, v = [d0, d1, d2, d3] := by
    match v, hv with
    | [d0, d1, d2, d3], _ => exact ⟨d0, d1, d2, d3, rfl⟩
  obtain ⟨w0, w1, w2, w3, rfl⟩ : ∃ d0 d1 d2 d3, v' = [d0, d1, d2, d3] := by
    match v', hv' with
    | [d0, d1, d2, d3], _ => exact ⟨d0, d1, d2, d3, rfl⟩
  obtain ⟨b, rfl⟩ := List.length_eq_one_iff.1 hb
  obtain ⟨b', rfl⟩ := List.length_eq_one_iff.1 hb'
  refine ⟨_, _, pairCase_kOf _ _ _ _ _ _ _ _ _ _ _ _, pairCase_kOf _ _ _ _ _ _ _ _ _ _ _ _, ?_⟩
  intro i hi
  rcases i with _ | _ | i
  · simp [MatchUp.pairing, MatchUp.numBlocks, MatchUp.blockLen, MatchUp.elem, pairCase, pairIdx, Finset.sum_range_succ]
    ring
  · simp [MatchUp.pairing, MatchUp.numBlocks, MatchUp.blockLen, MatchUp.elem, pairCase, pairIdx, Finset.sum_range_succ]
    ring
  · simp [pairCase] at hi

theorem pairG_flat {r0 r1 x0 x1 k0 k1 a m : ℝ} (hm : 2 * m = (r0 + k0) + (r1 + k1)) :
    (pairG r0 r1 x0 x1 k0 k1 a [(m - k0 + r0) / 2, (m - k1 + r1) / 2, x0, x1, m]).Flat [(m - k0 + r0) / 2, (m - k1 + r1) / 2, x0, x1, m] := by
  refine ⟨_, _, pairG_calcF _ _ _ _ _ _ _ _ _ _ _ _ _, pairG_getJPTx _ _ _ _ _ _ _ _ _ _ _ _ _ _ _ _ _ _, ?_⟩
  intro e he
  simp only [List.mem_cons, List.not_mem_nil, or_false] at he
  rcases he with rfl | rfl | rfl | rfl | rfl <;> norm_num <;> linarith

end Fixture
open Fixture

/-- **C89, a case.** Two match-ups with a reference, all uncertainties one: the hypotheses of `C89_stationary` and `C89_affine` are met where the offset is the mean of the two values of
reference plus K, whatever the residuals; the fitted references are moved towards it. -/
theorem C89_case {r0 r1 x0 x1 k0 k1 a m : ℝ} (hm : 2 * m = (r0 + k0) + (r1 + k1)) : ∃ (g : GN ℝ Int) (B : Nat → Nat → Nat → ℝ) (A : Nat → Nat → ℝ),
    g = pairG r0 r1 x0 x1 k0 k1 a [(m - k0 + r0) / 2, (m - k1 + r1) / 2, x0, x1, m] ∧ (pairCase r0 r1 x0 x1 k0 k1 a).SolverReady ["B"] [] 1 ∧ g.Solves (pairCase r0 r1 x0 x1 k0 k1 a) ∧
    (pairCase r0 r1 x0 x1 k0 k1 a).mu.Normalisable ∧ g.Smooth (pairCase r0 r1 x0 x1 k0 k1 a) ["B"] [] ∧ (pairCase r0 r1 x0 x1 k0 k1 a).AffineK g.hd.a.length B A ∧
    Identifies A (pairCase r0 r1 x0 x1 k0 k1 a).mu.ks.length g.hd.a.length ∧
    (∀ v, v.length = g.hd.a.length → matTVec g.S v = .ok (List.replicate g.hd.a.length 0) → v = List.replicate g.hd.a.length 0) ∧ g.Flat g.xyza ∧
    m = 0 + (glsEstimator (pairCase r0 r1 x0 x1 k0 k1 a).mu 1 B A).mulVec (fun i : Fin 2 => [k0, k1].getD i 0 - [0 - r0, 0 - r1].getD i 0) 0 := by
  have hS := pairG_solves r0 r1 x0 x1 k0 k1 a (l := [(m - k0 + r0) / 2, (m - k1 + r1) / 2, x0, x1, m]) rfl
  have hready := pairCase_ready r0 r1 x0 x1 k0 k1 a
  have hnorm := pairCase_normalisable r0 r1 x0 x1 k0 k1 a
  have hsm : (pairG r0 r1 x0 x1 k0 k1 a [(m - k0 + r0) / 2, (m - k1 + r1) / 2, x0, x1, m]).Smooth (pairCase r0 r1 x0 x1 k0 k1 a) ["B"] [] :=
    pairG_smooth (l := [(m - k0 + r0) / 2, (m - k1 + r1) / 2, x0, x1, m]) (x := [(m - k0 + r0) / 2, (m - k1 + r1) / 2, x0, x1, m]) rfl
  have hA : Identifies (fun _ _ => 1) 2 1 := by
    intro d h j hj
    have h0 := h 0 (by omega)
    have : j = 0 := by omega
    subst this
    simpa using h0
  have hSm : ∀ v, v.length = 1 → matTVec (pairG r0 r1 x0 x1 k0 k1 a [(m - k0 + r0) / 2, (m - k1 + r1) / 2, x0, x1, m]).S v = .ok (List.replicate 1 0) → v = List.replicate 1 0 := by
    intro v hv h0
    obtain ⟨v0, rfl⟩ := List.length_eq_one_iff.1 hv
    have e : matTVec [[1]] [v0] = .ok [1 * v0 + 0] := rfl
    have := h0.symm.trans e
    simp at this
    subst this
    rfl
  have hK := pairCase_affine r0 r1 x0 x1 k0 k1 a
  have hflat := pairG_flat (x0 := x0) (x1 := x1) (a := a) hm
  refine ⟨_, _, _, rfl, hready, hS, hnorm, hsm, hK, hA, hSm, hflat, ?_⟩
  exact (C89_affine hready hS hnorm hsm hK hA hSm hflat).1 [0] _ rfl (pairCase_kOf r0 r1 x0 x1 k0 k1 a r0 r1 x0 x1 0) (⟨0, by decide⟩ : Fin 1)

/-- **C89, failure: the systematic uncertainty of a reference.** The gradient which the solver computes is zero, and the normal equations do not hold, for any multipliers: the fitted
reference has moved by its random uncertainty only. -/
theorem C89_systematic_reference_fails : ∃ (ms : Evaluable ℝ Int) (g : GN ℝ Int) (est : Evaluable ℝ Int) (B : Nat → Nat → Nat → ℝ) (A : Nat → Nat → ℝ), ms.SolverReady ["B"] [] 1 ∧
    g.Solves ms ∧ ms.mu.Normalisable ∧ (g.estimate g.xyza g.hd.mu.values.length g.hd.mu.ks.length).denormalise = .ok est ∧
    ms.KDerivatives est.mu.values (g.xyza.drop g.hd.mu.values.length) B A ∧ g.Flat g.xyza ∧
    ∀ l, ¬ ms.NormalEquations est.mu.values (g.xyza.drop g.hd.mu.values.length) B A l := by
  have hS : (tinyG (1 : ℝ) 1 (-2) 1 0 1 [-1, 0, 0, 1]).Solves (tinyCase 1 1 (-2) 1 0 1) := ⟨tinyG_norm _ _ _ _ _ _ _, rfl, rfl, by simp [tinyG, tinyCase]⟩
  have hready := tinyCase_ready (1 : ℝ) 1 (-2) 1 0 1
  have hnorm : (tinyCase (1 : ℝ) 1 (-2) 1 0 1).mu.Normalisable := by
    refine ⟨hready.wf, rfl, rfl, ?_, ?_⟩
    · intro b n u hu hn
      rcases b with _ | _ | b
      · cases hu; cases hn; exact .inl ⟨[1], rfl, by simp, .inr ⟨_, _, rfl, rfl, rfl, le_rfl⟩⟩
      · cases hu; cases hn; exact .inl ⟨[1], rfl, by simp, .inl rfl⟩
      · simp [tinyCase] at hu
    · simp [tinyCase]
  obtain ⟨est, he, hev⟩ : ∃ est, ((tinyG (1 : ℝ) 1 (-2) 1 0 1 [-1, 0, 0, 1]).estimate [-1, 0, 0, 1] 3 1).denormalise = .ok est ∧ est.mu.values = [-1, 0] := by
    have : (((tinyG (1 : ℝ) 1 (-2) 1 0 1 [-1, 0, 0, 1]).estimate [-1, 0, 0, 1] 3 1).denormalise).map (fun e => e.mu.values) = .ok [(-1) * 1 + 0 * 1, 0 * 1] := by kernel_rfl
    cases hd : ((tinyG (1 : ℝ) 1 (-2) 1 0 1 [-1, 0, 0, 1]).estimate [-1, 0, 0, 1] 3 1).denormalise with
    | error e => rw [hd] at this; cases this
    | ok e => rw [hd] at this; exact ⟨e, rfl, (Except.ok.inj this).trans (by norm_num)⟩
  have hB : (tinyCase (1 : ℝ) 1 (-2) 1 0 1).KDerivatives [-1, 0] [1] (fun _ c _ => if c = 0 then -1 else 1) (fun _ _ => 0) := by
    have := tinyCase_derivatives (-1) 0 1
    exact this
  refine ⟨_, _, est, fun _ c _ => if c = 0 then -1 else 1, fun _ _ => 0, hready, hS, hnorm, he, ?_, ?_, ?_⟩
  · rw [hev]
    exact hB
  · have hJ : ∀ v0 v1 v2 v3 : ℝ, (tinyG (1 : ℝ) 1 (-2) 1 0 1 [-1, 0, 0, 1]).getJPTx [v0, v1, v2, v3] =
        .ok [v0 + ((-1) * 1) * v3 * 1 / 1, v1 + (1 * 1) * 1 * v3 * 1 / 1, v2, 1 * (0 + 1 * (1 * (0 * 1) * (v3 / 1) + 0)) + 0] := by
      intro v0 v1 v2 v3
      kernel_rfl
    refine ⟨_, _, tinyG_calcF _ _ _ _ _ _ _ _ _ _ _, hJ _ _ _ _, ?_⟩
    intro e he
    simp only [List.mem_cons, List.not_mem_nil, or_false] at he
    rcases he with rfl | rfl | rfl | rfl <;> norm_num
  · intro l hl
    rw [hev] at hl
    obtain ⟨⟨k, h1, h2⟩, h3, _⟩ := hl
    have hk : (tinyCase (1 : ℝ) 1 (-2) 1 0 1).kOf [-1, 0] [1] = .ok [1 * 0 - -1] := tinyCase_kOf _ _ _ _ _ _ _ _ _
    have := hk.symm.trans h1
    cases this
    have e1 := h2 0 (by simp [tinyCase])
    have e2 := h3 0 0 (by simp [MatchUp.numBlocks, tinyCase, tinyIdx]) (by simp [MatchUp.blockLen, tinyCase, tinyIdx])
    norm_num [MatchUp.elem, MatchUp.covMul, MatchUp.declaredCov, UncBlock.randomCov, UncBlock.sysUnc, MatchUp.numBlocks, MatchUp.blockLen, tinyCase, tinyIdx, Finset.sum_range_succ] at e1 e2
    linarith

end Verif
