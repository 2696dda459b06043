import Verif.Props.Propagation
import Verif.Props.DescentCase
import Verif.Props.ObjectiveCase
/-
Property C88: a concrete case, and a reference with a systematic uncertainty, of which the reported covariance leaves a part out.
-/
set_option autoImplicit false
namespace Verif
namespace Fixture

theorem pairCase_kOf (r0 r1 x0 x1 k0 k1 a v0 v1 v2 v3 b : ℝ) : (pairCase r0 r1 x0 x1 k0 k1 a).kOf [v0, v1, v2, v3] [b] = .ok [b - v0, b - v1] := by kernel_rfl

theorem tinyCase_kOf (r s x0 x1 k a v0 v1 b : ℝ) : (tinyCase r s x0 x1 k a).kOf [v0, v1] [b] = .ok [b * v1 - v0] := by kernel_rfl

theorem affine_deriv (u v : ℝ) : HasDerivAt (fun t : ℝ => u + t * v) v 0 := by
  simpa using ((hasDerivAt_id (0 : ℝ)).mul_const v).const_add u

/-- Each K is the parameter minus the reference of the same match-up. -/
theorem pairCase_derivatives (r0 r1 x0 x1 k0 k1 a v0 v1 v2 v3 b : ℝ) :
    (pairCase r0 r1 x0 x1 k0 k1 a).KDerivatives [v0, v1, v2, v3] [b] (fun i c r => if c = 0 ∧ r = i then -1 else 0) (fun _ _ => 1) := by
  intro dv da hdv hda
  obtain ⟨d0, d1, d2, d3, rfl⟩ : ∃ d0 d1 d2 d3, dv = [d0, d1, d2, d3] := by
    match dv, hdv with
    | [d0, d1, d2, d3], _ => exact ⟨d0, d1, d2, d3, rfl⟩
  obtain ⟨e, rfl⟩ := List.length_eq_one_iff.1 hda
  refine ⟨fun t => [(b + t * e) - (v0 + t * d0), (b + t * e) - (v1 + t * d1)], fun t => pairCase_kOf _ _ _ _ _ _ _ _ _ _ _ _, ?_⟩
  intro i hi
  rcases i with _ | _ | i
  · refine ((affine_deriv b e).fun_sub (affine_deriv v0 d0)).congr_deriv ?_
    simp [MatchUp.pairing, MatchUp.numBlocks, MatchUp.blockLen, MatchUp.elem, pairCase, pairIdx, Finset.sum_range_succ]
    ring
  · refine ((affine_deriv b e).fun_sub (affine_deriv v1 d1)).congr_deriv ?_
    simp [MatchUp.pairing, MatchUp.numBlocks, MatchUp.blockLen, MatchUp.elem, pairCase, pairIdx, Finset.sum_range_succ]
    ring
  · simp [pairCase] at hi

theorem pairCase_propagated (r0 r1 x0 x1 k0 k1 a : ℝ) (i j : Fin 1) :
    propagatedCov (pairCase r0 r1 x0 x1 k0 k1 a).mu 1 (fun i c r => if c = 0 ∧ r = i then -1 else 0) (fun _ _ => 1) i j = 1 := by
  have hQ : kCovM (pairCase r0 r1 x0 x1 k0 k1 a).mu (fun i c r => if c = 0 ∧ r = i then -1 else 0) = (!![2, 0; 0, 2] : Matrix (Fin 2) (Fin 2) ℝ) := by
    have h : ∀ p q : Fin 2, (pairCase r0 r1 x0 x1 k0 k1 a).mu.kCov (fun i c r => if c = 0 ∧ r = i then -1 else 0) p q = (!![2, 0; 0, 2] : Matrix (Fin 2) (Fin 2) ℝ) p q := by
      intro p q
      fin_cases p <;> fin_cases q <;> norm_num [MatchUp.kCov, MatchUp.pairing, MatchUp.covMul, MatchUp.declaredCov, UncBlock.randomCov, UncBlock.sysUnc, MatchUp.numBlocks, MatchUp.blockLen, pairCase, pairIdx,
        Finset.sum_range_succ]
    ext p q
    exact h p q
  have hI : (kCovM (pairCase r0 r1 x0 x1 k0 k1 a).mu (fun i c r => if c = 0 ∧ r = i then -1 else 0))⁻¹ = (!![1 / 2, 0; 0, 1 / 2] : Matrix (Fin 2) (Fin 2) ℝ) := by
    have h : (!![2, 0; 0, 2] : Matrix (Fin 2) (Fin 2) ℝ)⁻¹ = !![1 / 2, 0; 0, 1 / 2] := by
      refine Matrix.inv_eq_right_inv ?_
      ext p q
      fin_cases p <;> fin_cases q <;> norm_num [Matrix.mul_apply, Fin.sum_univ_two]
    rw [hQ]
    exact h
  have hM : (kParM 2 1 fun _ _ => (1 : ℝ)).transpose * (!![1 / 2, 0; 0, 1 / 2] : Matrix (Fin 2) (Fin 2) ℝ) * kParM 2 1 (fun _ _ => (1 : ℝ)) = 1 := by
    ext p q
    fin_cases p; fin_cases q
    norm_num [Matrix.mul_apply, Fin.sum_univ_two, kParM, Matrix.transpose_apply]
  unfold propagatedCov
  rw [hI]
  refine (congrFun (congrFun (congrArg (fun M : Matrix (Fin 1) (Fin 1) ℝ => M⁻¹) hM) i) j).trans ?_
  fin_cases i; fin_cases j
  simp

end Fixture
open Fixture

/-- **C88, a case.** Two match-ups with a reference, all uncertainties one: the hypotheses of `C88_columns` and `C88_covariance_partial` are met, and the reported variance of the offset is the propagated
one: half of the variance `1 + 1` of one K. -/
theorem C88_case {r0 r1 x0 x1 k0 k1 a y0 y1 y2 y3 y4 : ℝ} : ∃ (g : GN ℝ Int) (est : Evaluable ℝ Int) (B : Nat → Nat → Nat → ℝ) (A : Nat → Nat → ℝ) (minres : GN ℝ Int → List ℝ → Py (List ℝ))
    (V : List (List ℝ)), g = pairG r0 r1 x0 x1 k0 k1 a [y0, y1, y2, y3, y4] ∧ (pairCase r0 r1 x0 x1 k0 k1 a).SolverReady ["B"] [] 1 ∧ g.Solves (pairCase r0 r1 x0 x1 k0 k1 a) ∧
    (pairCase r0 r1 x0 x1 k0 k1 a).mu.Normalisable ∧ g.Smooth (pairCase r0 r1 x0 x1 k0 k1 a) ["B"] [] ∧
    (g.estimate g.xyza g.hd.mu.values.length g.hd.mu.ks.length).denormalise = .ok est ∧
    (pairCase r0 r1 x0 x1 k0 k1 a).KDerivatives est.mu.values (g.xyza.drop g.hd.mu.values.length) B A ∧ Identifies A 2 1 ∧
    (∀ b, b.length = 5 → ∃ z, minres g b = .ok z ∧ z.length = b.length ∧ g.calcHx z = .ok b) ∧
    g.covariance minres = .ok V ∧ (V.getD 0 []).getD 0 0 = 1 ∧ propagatedCov (pairCase r0 r1 x0 x1 k0 k1 a).mu 1 B A 0 0 = 1 := by
  classical
  have hS := pairG_solves r0 r1 x0 x1 k0 k1 a (l := [y0, y1, y2, y3, y4]) rfl
  have hready := pairCase_ready r0 r1 x0 x1 k0 k1 a
  have hnorm := pairCase_normalisable r0 r1 x0 x1 k0 k1 a
  have hsm : (pairG r0 r1 x0 x1 k0 k1 a [y0, y1, y2, y3, y4]).Smooth (pairCase r0 r1 x0 x1 k0 k1 a) ["B"] [] := pairG_smooth (l := [y0, y1, y2, y3, y4]) (x := [y0, y1, y2, y3, y4]) rfl
  obtain ⟨est, he, hev⟩ : ∃ est, ((pairG r0 r1 x0 x1 k0 k1 a [y0, y1, y2, y3, y4]).estimate [y0, y1, y2, y3, y4] 4 2).denormalise = .ok est ∧ est.mu.values = [y0 * 1, y1 * 1, y2 * 1, y3 * 1] := by
    have : (((pairG r0 r1 x0 x1 k0 k1 a [y0, y1, y2, y3, y4]).estimate [y0, y1, y2, y3, y4] 4 2).denormalise).map (fun e => e.mu.values) = .ok [y0 * 1, y1 * 1, y2 * 1, y3 * 1] := by kernel_rfl
    cases hd : ((pairG r0 r1 x0 x1 k0 k1 a [y0, y1, y2, y3, y4]).estimate [y0, y1, y2, y3, y4] 4 2).denormalise with
    | error e => rw [hd] at this; cases this
    | ok e => rw [hd] at this; exact ⟨e, rfl, Except.ok.inj this⟩
  have hinj : ∀ x : List ℝ, x.length = 4 + 1 → (pairG r0 r1 x0 x1 k0 k1 a [y0, y1, y2, y3, y4]).getJPx x = .ok (List.replicate (4 + 2) 0) → x = List.replicate x.length 0 := by
    intro x hx h0
    obtain ⟨v0, v1, v2, v3, v4, rfl⟩ := length5 hx
    have h0' := h0.symm.trans (pairG_getJPx r0 r1 x0 x1 k0 k1 a y0 y1 y2 y3 y4 v0 v1 v2 v3 v4)
    simp only [List.replicate, Except.ok.injEq, List.cons.injEq, and_true] at h0'
    obtain ⟨e0, e1, e2, e3, e4, e5⟩ := h0'
    subst e0; subst e1; subst e2; subst e3
    norm_num at e4
    subst e4
    rfl
  let minres : GN ℝ Int → List ℝ → Py (List ℝ) := fun g b => if h : ∃ z, z.length = b.length ∧ g.calcHx z = .ok b then .ok h.choose else .error .nonFinite
  have hsolve : ∀ b, b.length = 5 → ∃ z, minres (pairG r0 r1 x0 x1 k0 k1 a [y0, y1, y2, y3, y4]) b = .ok z ∧ z.length = b.length ∧
      (pairG r0 r1 x0 x1 k0 k1 a [y0, y1, y2, y3, y4]).calcHx z = .ok b := by
    intro b hb
    have h := (C31_solvable hready hS hinj b hb).exists
    exact ⟨h.choose, dif_pos h, h.choose_spec⟩
  have hB : (pairCase r0 r1 x0 x1 k0 k1 a).KDerivatives est.mu.values [y4] (fun i c r => if c = 0 ∧ r = i then -1 else 0) (fun _ _ => 1) := by
    rw [hev]; exact pairCase_derivatives _ _ _ _ _ _ _ _ _ _ _ _
  have hA : Identifies (fun _ _ => 1) 2 1 := by
    intro d h j hj
    have h0 := h 0 (by omega)
    have : j = 0 := by omega
    subst this
    simpa using h0
  have hp := pairCase_propagated r0 r1 x0 x1 k0 k1 a 0 0
  have hSm : ∀ v, v.length = 1 → matTVec (pairG r0 r1 x0 x1 k0 k1 a [y0, y1, y2, y3, y4]).S v = .ok (List.replicate 1 0) → v = List.replicate 1 0 := by
    intro v hv h0
    obtain ⟨v0, rfl⟩ := List.length_eq_one_iff.1 hv
    have e : matTVec [[1]] [v0] = .ok [1 * v0 + 0] := rfl
    have := h0.symm.trans e
    simp at this
    subst this
    rfl
  obtain ⟨_, _, V, v1, v2⟩ := C88_covariance_partial hready hS hnorm hsm he hB hA hSm minres hsolve
  refine ⟨_, est, _, _, minres, V, rfl, hready, hS, hnorm, hsm, he, hB, hA, hsolve, v1, ?_, hp⟩
  exact (v2 (⟨0, by decide⟩ : Fin 1) (⟨0, by decide⟩ : Fin 1)).trans hp

namespace Fixture

theorem tinyG_getJPx_all (v0 v1 v2 v3 : ℝ) : (tinyG (1 : ℝ) 1 1 1 0 1 [1, 1, 0, 1]).getJPx [v0, v1, v2, v3] = .ok [v0, v1, v2, v1 + v3 - v0] := by
  have : (tinyG (1 : ℝ) 1 1 1 0 1 [1, 1, 0, 1]).getJPx [v0, v1, v2, v3] =
      .ok [v0, v1, v2, (0 + ((-1) * 1) * v0 * 1 / 1) + (1 * 1) * 1 * v1 * 1 / 1 + (1 * (1 / 1 * (1 * 1) * (1 * v3 + 0) + 0))] := by kernel_rfl
  rw [this]
  congr 1
  simp
  ring

theorem tinyG_getJPTx_all (v0 v1 v2 v3 : ℝ) : (tinyG (1 : ℝ) 1 1 1 0 1 [1, 1, 0, 1]).getJPTx [v0, v1, v2, v3] = .ok [v0 - v3, v1 + v3, v2, v3] := by
  have : (tinyG (1 : ℝ) 1 1 1 0 1 [1, 1, 0, 1]).getJPTx [v0, v1, v2, v3] =
      .ok [v0 + ((-1) * 1) * v3 * 1 / 1, v1 + (1 * 1) * 1 * v3 * 1 / 1, v2, 1 * (0 + 1 * (1 * (1 * 1) * (v3 / 1) + 0)) + 0] := by kernel_rfl
  rw [this]
  congr 1
  simp
  ring

theorem tinyCase_derivatives (v0 v1 b : ℝ) :
    (tinyCase (1 : ℝ) 1 1 1 0 1).KDerivatives [v0, v1] [b] (fun _ c _ => if c = 0 then -1 else b) (fun _ _ => v1) := by
  intro dv da hdv hda
  obtain ⟨d0, d1, rfl⟩ := List.length_eq_two.1 hdv
  obtain ⟨e, rfl⟩ := List.length_eq_one_iff.1 hda
  refine ⟨fun t => [(b + t * e) * (v1 + t * d1) - (v0 + t * d0)], fun t => tinyCase_kOf _ _ _ _ _ _ _ _ _, ?_⟩
  intro i hi
  rcases i with _ | i
  · refine (((affine_deriv b e).fun_mul (affine_deriv v1 d1)).fun_sub (affine_deriv v0 d0)).congr_deriv ?_
    simp [MatchUp.pairing, MatchUp.numBlocks, MatchUp.blockLen, MatchUp.elem, tinyCase, tinyIdx, Finset.sum_range_succ]
    ring
  · simp [tinyCase] at hi

theorem tinyCase_propagated (i j : Fin 1) :
    propagatedCov (tinyCase (1 : ℝ) 1 1 1 0 1).mu 1 (fun _ c _ => if c = 0 then -1 else 1) (fun _ _ => 1) i j = 4 := by
  have hQ : kCovM (tinyCase (1 : ℝ) 1 1 1 0 1).mu (fun _ c _ => if c = 0 then -1 else 1) = (!![4] : Matrix (Fin 1) (Fin 1) ℝ) := by
    have h : ∀ p q : Fin 1, (tinyCase (1 : ℝ) 1 1 1 0 1).mu.kCov (fun _ c _ => if c = 0 then -1 else 1) p q = (!![4] : Matrix (Fin 1) (Fin 1) ℝ) p q := by
      intro p q
      fin_cases p; fin_cases q; norm_num [MatchUp.kCov, MatchUp.pairing, MatchUp.covMul, MatchUp.declaredCov, UncBlock.randomCov, UncBlock.sysUnc, MatchUp.numBlocks, MatchUp.blockLen, tinyCase, tinyIdx,
        Finset.sum_range_succ]
    ext p q
    exact h p q
  have hI : (kCovM (tinyCase (1 : ℝ) 1 1 1 0 1).mu (fun _ c _ => if c = 0 then -1 else 1))⁻¹ = (!![1 / 4] : Matrix (Fin 1) (Fin 1) ℝ) := by
    have h : (!![4] : Matrix (Fin 1) (Fin 1) ℝ)⁻¹ = !![1 / 4] := by
      refine Matrix.inv_eq_right_inv ?_
      ext p q
      fin_cases p; fin_cases q; norm_num [Matrix.mul_apply]
    rw [hQ]
    exact h
  have hM : (kParM 1 1 fun _ _ => (1 : ℝ)).transpose * (!![1 / 4] : Matrix (Fin 1) (Fin 1) ℝ) * kParM 1 1 (fun _ _ => (1 : ℝ)) = !![1 / 4] := by
    ext p q
    fin_cases p; fin_cases q
    norm_num [Matrix.mul_apply, kParM, Matrix.transpose_apply]
  have h4 : (!![1 / 4] : Matrix (Fin 1) (Fin 1) ℝ)⁻¹ = !![4] := by
    refine Matrix.inv_eq_right_inv ?_
    ext p q
    fin_cases p; fin_cases q; norm_num [Matrix.mul_apply]
  unfold propagatedCov
  rw [hI]
  refine (congrFun (congrFun (congrArg (fun M : Matrix (Fin 1) (Fin 1) ℝ => M⁻¹) hM) i) j).trans ?_
  rw [h4]
  fin_cases i; fin_cases j
  rfl

end Fixture

/-- **C88, failure: the systematic uncertainty of a reference is left out.** With exact solutions of the linear systems, the reported variance of the parameter is 3; the declared uncertainties give 4. -/
theorem C88_systematic_reference_fails : ∃ (ms : Evaluable ℝ Int) (g : GN ℝ Int) (est : Evaluable ℝ Int) (B : Nat → Nat → Nat → ℝ) (A : Nat → Nat → ℝ)
    (minres : GN ℝ Int → List ℝ → Py (List ℝ)) (V : List (List ℝ)), ms.SolverReady ["B"] [] 1 ∧ g.Solves ms ∧ ms.mu.Normalisable ∧ g.hd.a.length = 1 ∧
    (g.estimate g.xyza g.hd.mu.values.length g.hd.mu.ks.length).denormalise = .ok est ∧ ms.KDerivatives est.mu.values (g.xyza.drop g.hd.mu.values.length) B A ∧
    Identifies A ms.mu.ks.length 1 ∧
    (∀ b, b.length = g.hd.mu.values.length + g.hd.a.length → ∃ z, minres g b = .ok z ∧ z.length = b.length ∧ g.calcHx z = .ok b) ∧
    g.covariance minres = .ok V ∧ (V.getD 0 []).getD 0 0 = 3 ∧ propagatedCov ms.mu 1 B A 0 0 = 4 := by
  classical
  have hS : (tinyG (1 : ℝ) 1 1 1 0 1 [1, 1, 0, 1]).Solves (tinyCase 1 1 1 1 0 1) := ⟨tinyG_norm _ _ _ _ _ _ _, rfl, rfl, by simp [tinyG, tinyCase]⟩
  have hready := tinyCase_ready (1 : ℝ) 1 1 1 0 1
  have hnorm : (tinyCase (1 : ℝ) 1 1 1 0 1).mu.Normalisable := by
    refine ⟨hready.wf, rfl, rfl, ?_, ?_⟩
    · intro b n u hu hn
      rcases b with _ | _ | b
      · cases hu; cases hn; exact .inl ⟨[1], rfl, by simp, .inr ⟨_, _, rfl, rfl, rfl, le_rfl⟩⟩
      · cases hu; cases hn; exact .inl ⟨[1], rfl, by simp, .inl rfl⟩
      · simp [tinyCase] at hu
    · simp [tinyCase]
  obtain ⟨est, he, hev⟩ : ∃ est, ((tinyG (1 : ℝ) 1 1 1 0 1 [1, 1, 0, 1]).estimate [1, 1, 0, 1] 3 1).denormalise = .ok est ∧ est.mu.values = [1, 1] := by
    have : (((tinyG (1 : ℝ) 1 1 1 0 1 [1, 1, 0, 1]).estimate [1, 1, 0, 1] 3 1).denormalise).map (fun e => e.mu.values) = .ok [1 * 1 + 0 * 1, 1 * 1] := by kernel_rfl
    cases hd : ((tinyG (1 : ℝ) 1 1 1 0 1 [1, 1, 0, 1]).estimate [1, 1, 0, 1] 3 1).denormalise with
    | error e => rw [hd] at this; cases this
    | ok e => rw [hd] at this; exact ⟨e, rfl, (Except.ok.inj this).trans (by norm_num)⟩
  have hinj : ∀ x : List ℝ, x.length = 3 + 1 → (tinyG (1 : ℝ) 1 1 1 0 1 [1, 1, 0, 1]).getJPx x = .ok (List.replicate (3 + 1) 0) → x = List.replicate x.length 0 := by
    intro x hx h0
    obtain ⟨v0, v1, v2, v3, rfl⟩ : ∃ v0 v1 v2 v3, x = [v0, v1, v2, v3] := by
      match x, hx with
      | [v0, v1, v2, v3], _ => exact ⟨v0, v1, v2, v3, rfl⟩
    have h0' := h0.symm.trans (tinyG_getJPx_all v0 v1 v2 v3)
    simp only [List.replicate, Except.ok.injEq, List.cons.injEq, and_true] at h0'
    obtain ⟨e0, e1, e2, e3⟩ := h0'
    subst e0; subst e1; subst e2
    norm_num at e3
    subst e3
    rfl
  let minres : GN ℝ Int → List ℝ → Py (List ℝ) := fun g b => if h : ∃ z, z.length = b.length ∧ g.calcHx z = .ok b then .ok h.choose else .error .nonFinite
  have hsolve : ∀ b, b.length = 4 → ∃ z, minres (tinyG (1 : ℝ) 1 1 1 0 1 [1, 1, 0, 1]) b = .ok z ∧ z.length = b.length ∧ (tinyG (1 : ℝ) 1 1 1 0 1 [1, 1, 0, 1]).calcHx z = .ok b := by
    intro b hb
    have h := (C31_solvable hready hS hinj b hb).exists
    exact ⟨h.choose, dif_pos h, h.choose_spec⟩
  have hH : ({ tinyG (1 : ℝ) 1 1 1 0 1 [1, 1, 0, 1] with S := identS 1 } : GN ℝ Int).calcHx [1, -1, 0, 3] = .ok (unitV 4 3) := by
    have e : ({ tinyG (1 : ℝ) 1 1 1 0 1 [1, 1, 0, 1] with S := identS 1 } : GN ℝ Int) = tinyG (1 : ℝ) 1 1 1 0 1 [1, 1, 0, 1] := rfl
    rw [e]
    unfold GN.calcHx
    refine bind_ok.2 ⟨_, tinyG_getJPx_all _ _ _ _, ?_⟩
    refine (tinyG_getJPTx_all _ _ _ _).trans ?_
    norm_num [unitV, List.range_succ]
  have hSm : ∀ v, v.length = 1 → matTVec (tinyG (1 : ℝ) 1 1 1 0 1 [1, 1, 0, 1]).S v = .ok (List.replicate 1 0) → v = List.replicate 1 0 := by
    intro v hv h0
    obtain ⟨v0, rfl⟩ := List.length_eq_one_iff.1 hv
    have e : matTVec [[1]] [v0] = .ok [1 * v0 + 0] := rfl
    have := h0.symm.trans e
    simp at this
    subst this
    rfl
  have hc : ∀ j, j < 1 → ([1, -1, 0, 3] : List ℝ).length = 4 ∧ ({ tinyG (1 : ℝ) 1 1 1 0 1 [1, 1, 0, 1] with S := identS 1 } : GN ℝ Int).calcHx [1, -1, 0, 3] = .ok (unitV 4 (3 + j)) := by
    intro j hj
    have : j = 0 := by omega
    subst this
    exact ⟨rfl, hH⟩
  obtain ⟨V, v1, v2⟩ := C31_covariance two_ne_zero hready hS hSm minres hsolve (fun _ => [1, -1, 0, 3]) hc
  refine ⟨tinyCase 1 1 1 1 0 1, _, est, _, _, minres, V, hready, hS, hnorm, rfl, he, ?_, ?_, hsolve, v1, v2 0 0 Nat.one_pos Nat.one_pos, tinyCase_propagated 0 0⟩
  · rw [hev]
    exact tinyCase_derivatives 1 1 1
  · intro d h j hj
    have h0 := h 0 Nat.one_pos
    have : j = 0 := by omega
    subst this
    simpa using h0

end Verif
