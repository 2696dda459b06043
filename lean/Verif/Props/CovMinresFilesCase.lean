import Verif.Props.CovMinresFiles
import Verif.Props.MoreDataCase
import Verif.Props.GNKrylov
/-
C94 and C93 with the iterative solver: a concrete case.
-/
set_option autoImplicit false
namespace Verif
open Matrix
namespace Fixture

theorem lessG_calcPx {α : Type} [Field α] (a1 b1 k1 y0 y1 y2 v0 v1 v2 : α) : (lessG a1 b1 k1 [y0, y1, y2]).calcPx true [v0, v1, v2] = .ok [v0, v1, 1 * v2 + 0] := by kernel_rfl

theorem ordG_calcPx {α : Type} [Field α] (v0 v1 v2 v3 k0 k1 y0 y1 y2 y3 y4 z0 z1 z2 z3 z4 : α) :
    (ordG ["A", "B"] [gnRef, offsetCal] [v0, v1, v2, v3] k0 k1 [y0, y1, y2, y3, y4]).calcPx true [z0, z1, z2, z3, z4] = .ok [z0, z1, z2, z3, 1 * z4 + 0] := by kernel_rfl

theorem matrix_of_mulVec {m n : Nat} {J K : Matrix (Fin m) (Fin n) ℝ} (h : ∀ v, J *ᵥ v = K *ᵥ v) : J = K := by
  ext i j
  have := congrFun (h (Pi.single j 1)) i
  simpa using this

/-- The covariance of one match-up can be computed. -/
theorem lessG_minres (a1 b1 k1 : ℝ) {l : List ℝ} (hl : l.length = 3) {o : MinresOpts ℝ} (ho : o.shift = 0 ∧ 0 < o.eps ∧ o.eps ≤ 1 / 100 ∧ 0 ≤ o.cubeRootEps ∧ 0 ≤ o.rtol)
    (probes : (n : Nat) → List (Fin n → ℝ)) : ∃ (J : Matrix (Fin 3) (Fin 3) ℝ) (V : List (List ℝ)), (lessG a1 b1 k1 l).IsJacobian J ∧ (∀ v, 1 / 10 * normSq v ≤ normSq (J *ᵥ v)) ∧
      (lessG a1 b1 k1 l).covariance (GN.minresObject o realSqrt probes) = .ok V := by
  obtain ⟨y0, y1, y2, rfl⟩ := less3 hl
  have hr := less_ready a1 b1 k1
  have hg := lessG_solves a1 b1 k1 (l := [y0, y1, y2]) rfl
  obtain ⟨J, hJ⟩ : ∃ J : Matrix (Fin 3) (Fin 3) ℝ, (lessG a1 b1 k1 [y0, y1, y2]).IsJacobian J := jacobian_exists hr hg
  have hJv : ∀ v : Fin 3 → ℝ, J *ᵥ v = ![v 0, v 1, -v 0 + v 2] := by
    intro v
    have h := hJ.1 v
    have e : List.ofFn v = [v 0, v 1, v 2] := by simp [List.ofFn_succ]
    rw [e, lessG_getJPx] at h
    apply List.ofFn_injective
    rw [← Except.ok.inj h]
    simp [List.ofFn_succ]
  have hJe : J = !![1, 0, 0; 0, 1, 0; -1, 0, 1] := by
    apply matrix_of_mulVec
    intro v
    rw [hJv]
    funext i
    fin_cases i <;> simp [mulVec, dotProduct, Fin.sum_univ_three]
  have hHv : ∀ v : Fin 3 → ℝ, (Jᵀ * J) *ᵥ v = ![2 * v 0 - v 2, v 1, v 2 - v 0] := by
    intro v
    rw [← mulVec_mulVec, hJv, hJe]
    funext i
    fin_cases i <;> simp [mulVec, dotProduct, Fin.sum_univ_three, transpose_apply] <;> ring
  have hbd : ∀ v, 1 / 10 * normSq v ≤ normSq (J *ᵥ v) := by
    intro v
    rw [hJv]
    simp only [normSq, Fin.sum_univ_three, Matrix.cons_val]
    nlinarith [sq_nonneg (v 0), sq_nonneg (v 1), sq_nonneg (v 2), sq_nonneg (v 2 - 2 * v 0), sq_nonneg (2 * v 2 - 3 * v 0)]
  obtain ⟨ho1, ho2, ho3, ho4, ho5⟩ := ho
  have hP : (lessG a1 b1 k1 [y0, y1, y2]).calcPx true (unitV 3 2) = .ok (List.ofFn (![0, 0, 1] : Fin 3 → ℝ)) := by
    have e : (unitV 3 2 : List ℝ) = [0, 0, 1] := by kernel_rfl
    rw [e, lessG_calcPx]
    simp [List.ofFn_succ]
  have hlow : BoundedBelow (Jᵀ * J) o.eps := by
    intro v
    have h1 : o.eps * o.eps ≤ 1 / 10000 := by nlinarith
    refine (mul_le_mul_of_nonneg_right h1 (normSq_nonneg v)).trans ?_
    rw [hHv]
    simp only [normSq, Fin.sum_univ_three, Matrix.cons_val]
    nlinarith [sq_nonneg (2 * v 0 - v 2), sq_nonneg (v 2 - v 0), sq_nonneg (v 1), sq_nonneg (v 2), sq_nonneg (v 0), sq_nonneg ((2 * v 0 - v 2) + (v 2 - v 0)),
      sq_nonneg ((2 * v 0 - v 2) + 2 * (v 2 - v 0)), sq_nonneg ((2 * v 0 - v 2) - (v 2 - v 0)), sq_nonneg ((2 * v 0 - v 2) - 2 * (v 2 - v 0))]
  have hfar : FarFromEigenvector (Jᵀ * J) (![0, 0, 1] : Fin 3 → ℝ) o.eps := by
    intro c
    rw [hHv]
    simp only [normSq, Fin.sum_univ_three, Matrix.cons_val, Pi.sub_apply, Pi.smul_apply, smul_eq_mul]
    nlinarith [sq_nonneg (1 - c)]
  obtain ⟨V, hV⟩ := C73_returns hr hg hJ ⟨ho1, ho2, ho4, ho5⟩ hlow probes (by
    intro j hjl
    have : j = 0 := by
      have : j < 1 := hjl
      omega
    subst this
    exact ⟨_, hP, hfar⟩)
  exact ⟨J, V, hJ, hbd, hV⟩

/-- The covariance of two match-ups can be computed. -/
theorem ordG_minres (a1 b1 b2 a2 k1 k2 : ℝ) {l : List ℝ} (hl : l.length = 5) {o : MinresOpts ℝ} (ho : o.shift = 0 ∧ 0 < o.eps ∧ o.eps ≤ 1 / 100 ∧ 0 ≤ o.cubeRootEps ∧ 0 ≤ o.rtol)
    (probes : (n : Nat) → List (Fin n → ℝ)) : ∃ (J : Matrix (Fin 6) (Fin 5) ℝ) (V : List (List ℝ)),
      (ordG ["A", "B"] [gnRef, offsetCal] [a1, b1, b2, a2] k1 k2 l).IsJacobian J ∧ (∀ v, 1 / 10 * normSq v ≤ normSq (J *ᵥ v)) ∧
      (ordG ["A", "B"] [gnRef, offsetCal] [a1, b1, b2, a2] k1 k2 l).covariance (GN.minresObject o realSqrt probes) = .ok V := by
  obtain ⟨y0, y1, y2, y3, y4, rfl⟩ := length5 hl
  have hr := (ord_ready a1 b1 k1 b2 a2 k2).1
  have hg := ordG_solves a1 b1 b2 a2 k1 k2 (l := [y0, y1, y2, y3, y4]) rfl
  obtain ⟨J, hJ⟩ : ∃ J : Matrix (Fin 6) (Fin 5) ℝ, (ordG ["A", "B"] [gnRef, offsetCal] [a1, b1, b2, a2] k1 k2 [y0, y1, y2, y3, y4]).IsJacobian J := jacobian_exists hr hg
  have hJv : ∀ v : Fin 5 → ℝ, J *ᵥ v = ![v 0, v 1, v 2, v 3, -v 0 + v 4, v 3 - v 4] := by
    intro v
    have h := hJ.1 v
    have e : List.ofFn v = [v 0, v 1, v 2, v 3, v 4] := by simp [List.ofFn_succ]
    rw [e, ordG_getJPx] at h
    apply List.ofFn_injective
    rw [← Except.ok.inj h]
    simp [List.ofFn_succ]
    ring
  have hJe : J = !![1, 0, 0, 0, 0; 0, 1, 0, 0, 0; 0, 0, 1, 0, 0; 0, 0, 0, 1, 0; -1, 0, 0, 0, 1; 0, 0, 0, 1, -1] := by
    apply matrix_of_mulVec
    intro v
    rw [hJv]
    funext i
    fin_cases i <;> simp [mulVec, dotProduct, Fin.sum_univ_five] <;> ring
  have hHv : ∀ v : Fin 5 → ℝ, (Jᵀ * J) *ᵥ v = ![2 * v 0 - v 4, v 1, v 2, 2 * v 3 - v 4, 2 * v 4 - v 0 - v 3] := by
    intro v
    rw [← mulVec_mulVec, hJv, hJe]
    funext i
    fin_cases i <;> simp [mulVec, dotProduct, Fin.sum_univ_six, transpose_apply] <;> ring
  have hbd : ∀ v, 1 / 10 * normSq v ≤ normSq (J *ᵥ v) := by
    intro v
    rw [hJv]
    simp only [normSq, Fin.sum_univ_five, Fin.sum_univ_six, Matrix.cons_val]
    nlinarith [sq_nonneg (v 0), sq_nonneg (v 1), sq_nonneg (v 2), sq_nonneg (v 3), sq_nonneg (2 * v 4 - 3 * v 0), sq_nonneg (2 * v 4 - 3 * v 3)]
  obtain ⟨ho1, ho2, ho3, ho4, ho5⟩ := ho
  have hP : (ordG ["A", "B"] [gnRef, offsetCal] [a1, b1, b2, a2] k1 k2 [y0, y1, y2, y3, y4]).calcPx true (unitV 5 4) = .ok (List.ofFn (![0, 0, 0, 0, 1] : Fin 5 → ℝ)) := by
    have e : (unitV 5 4 : List ℝ) = [0, 0, 0, 0, 1] := by kernel_rfl
    rw [e, ordG_calcPx]
    simp [List.ofFn_succ]
  have hlow : BoundedBelow (Jᵀ * J) o.eps := by
    intro v
    have h1 : o.eps * o.eps ≤ 1 / 10000 := by nlinarith
    refine (mul_le_mul_of_nonneg_right h1 (normSq_nonneg v)).trans ?_
    rw [hHv]
    simp only [normSq, Fin.sum_univ_five, Matrix.cons_val]
    nlinarith [sq_nonneg (2 * v 0 - v 4), sq_nonneg (2 * v 3 - v 4), sq_nonneg (2 * v 4 - v 0 - v 3), sq_nonneg (v 2), sq_nonneg (v 1), sq_nonneg ((2 * v 0 - v 4) + (2 * v 3 - v 4) + 2 * (2 * v 4 - v 0 - v 3)),
      sq_nonneg (v 4), sq_nonneg (v 0), sq_nonneg (v 3)]
  have hfar : FarFromEigenvector (Jᵀ * J) (![0, 0, 0, 0, 1] : Fin 5 → ℝ) o.eps := by
    intro c
    rw [hHv]
    simp only [normSq, Fin.sum_univ_five, Matrix.cons_val, Pi.sub_apply, Pi.smul_apply, smul_eq_mul]
    nlinarith [sq_nonneg (2 - c)]
  obtain ⟨V, hV⟩ := C73_returns hr hg hJ ⟨ho1, ho2, ho4, ho5⟩ hlow probes (by
    intro j hjl
    have : j = 0 := by
      have : j < 1 := hjl
      omega
    subst this
    exact ⟨_, hP, hfar⟩)
  exact ⟨J, V, hJ, hbd, hV⟩

theorem ordG_calcPx' {α : Type} [Field α] (v0 v1 v2 v3 k0 k1 y0 y1 y2 y3 y4 z0 z1 z2 z3 z4 : α) :
    (ordG ["B", "A"] [offsetCal, gnRef] [v0, v1, v2, v3] k0 k1 [y0, y1, y2, y3, y4]).calcPx true [z0, z1, z2, z3, z4] = .ok [z0, z1, z2, z3, 1 * z4 + 0] := by kernel_rfl

/-- The same in the other order. -/
theorem ordG_minres' (a1 b1 b2 a2 k1 k2 : ℝ) {l : List ℝ} (hl : l.length = 5) {o : MinresOpts ℝ} (ho : o.shift = 0 ∧ 0 < o.eps ∧ o.eps ≤ 1 / 100 ∧ 0 ≤ o.cubeRootEps ∧ 0 ≤ o.rtol)
    (probes : (n : Nat) → List (Fin n → ℝ)) : ∃ (J : Matrix (Fin 6) (Fin 5) ℝ) (V : List (List ℝ)),
      (ordG ["B", "A"] [offsetCal, gnRef] [b2, a2, a1, b1] k2 k1 l).IsJacobian J ∧ (∀ v, 1 / 10 * normSq v ≤ normSq (J *ᵥ v)) ∧
      (ordG ["B", "A"] [offsetCal, gnRef] [b2, a2, a1, b1] k2 k1 l).covariance (GN.minresObject o realSqrt probes) = .ok V := by
  obtain ⟨y0, y1, y2, y3, y4, rfl⟩ := length5 hl
  have hr := (ord_ready a1 b1 k1 b2 a2 k2).2
  have hg := ordG_solves' b2 a2 a1 b1 k2 k1 (l := [y0, y1, y2, y3, y4]) rfl
  obtain ⟨J, hJ⟩ : ∃ J : Matrix (Fin 6) (Fin 5) ℝ, (ordG ["B", "A"] [offsetCal, gnRef] [b2, a2, a1, b1] k2 k1 [y0, y1, y2, y3, y4]).IsJacobian J := jacobian_exists hr hg
  have hJv : ∀ v : Fin 5 → ℝ, J *ᵥ v = ![v 0, v 1, v 2, v 3, v 1 - v 4, -v 2 + v 4] := by
    intro v
    have h := hJ.1 v
    have e : List.ofFn v = [v 0, v 1, v 2, v 3, v 4] := by simp [List.ofFn_succ]
    rw [e, ordG_getJPx'] at h
    apply List.ofFn_injective
    rw [← Except.ok.inj h]
    simp [List.ofFn_succ]
    ring
  have hJe : J = !![1, 0, 0, 0, 0; 0, 1, 0, 0, 0; 0, 0, 1, 0, 0; 0, 0, 0, 1, 0; 0, 1, 0, 0, -1; 0, 0, -1, 0, 1] := by
    apply matrix_of_mulVec
    intro v
    rw [hJv]
    funext i
    fin_cases i <;> simp [mulVec, dotProduct, Fin.sum_univ_five] <;> ring
  have hHv : ∀ v : Fin 5 → ℝ, (Jᵀ * J) *ᵥ v = ![v 0, 2 * v 1 - v 4, 2 * v 2 - v 4, v 3, 2 * v 4 - v 1 - v 2] := by
    intro v
    rw [← mulVec_mulVec, hJv, hJe]
    funext i
    fin_cases i <;> simp [mulVec, dotProduct, Fin.sum_univ_six, transpose_apply] <;> ring
  have hbd : ∀ v, 1 / 10 * normSq v ≤ normSq (J *ᵥ v) := by
    intro v
    rw [hJv]
    simp only [normSq, Fin.sum_univ_five, Fin.sum_univ_six, Matrix.cons_val]
    nlinarith [sq_nonneg (v 0), sq_nonneg (v 1), sq_nonneg (v 2), sq_nonneg (v 3), sq_nonneg (2 * v 4 - 3 * v 1), sq_nonneg (2 * v 4 - 3 * v 2)]
  obtain ⟨ho1, ho2, ho3, ho4, ho5⟩ := ho
  have hP : (ordG ["B", "A"] [offsetCal, gnRef] [b2, a2, a1, b1] k2 k1 [y0, y1, y2, y3, y4]).calcPx true (unitV 5 4) = .ok (List.ofFn (![0, 0, 0, 0, 1] : Fin 5 → ℝ)) := by
    have e : (unitV 5 4 : List ℝ) = [0, 0, 0, 0, 1] := by kernel_rfl
    rw [e, ordG_calcPx']
    simp [List.ofFn_succ]
  have hlow : BoundedBelow (Jᵀ * J) o.eps := by
    intro v
    have h1 : o.eps * o.eps ≤ 1 / 10000 := by nlinarith
    refine (mul_le_mul_of_nonneg_right h1 (normSq_nonneg v)).trans ?_
    rw [hHv]
    simp only [normSq, Fin.sum_univ_five, Matrix.cons_val]
    nlinarith [sq_nonneg (2 * v 1 - v 4), sq_nonneg (2 * v 2 - v 4), sq_nonneg (2 * v 4 - v 1 - v 2), sq_nonneg (v 0), sq_nonneg (v 3), sq_nonneg ((2 * v 1 - v 4) + (2 * v 2 - v 4) + 2 * (2 * v 4 - v 1 - v 2)),
      sq_nonneg (v 4), sq_nonneg (v 1), sq_nonneg (v 2)]
  have hfar : FarFromEigenvector (Jᵀ * J) (![0, 0, 0, 0, 1] : Fin 5 → ℝ) o.eps := by
    intro c
    rw [hHv]
    simp only [normSq, Fin.sum_univ_five, Matrix.cons_val, Pi.sub_apply, Pi.smul_apply, smul_eq_mul]
    nlinarith [sq_nonneg (2 - c)]
  obtain ⟨V, hV⟩ := C73_returns hr hg hJ ⟨ho1, ho2, ho4, ho5⟩ hlow probes (by
    intro j hjl
    have : j = 0 := by
      have : j < 1 := hjl
      omega
    subst this
    exact ⟨_, hP, hfar⟩)
  exact ⟨J, V, hJ, hbd, hV⟩

end Fixture
open Fixture

/-- **C94 with the iterative solver, a case.** The files of `C94_case`: all hypotheses of `C94_minres` are met with the linear solver of the code (any tolerance, `eps` at most a hundredth),
which returns for both files and for the first alone. -/
theorem C94_minres_case (a1 b1 k1 b2 a2 k2 y0 y1 y2 y3 y4 : ℝ) {o : MinresOpts ℝ} (ho : o.shift = 0 ∧ 0 < o.eps ∧ o.eps ≤ 1 / 100 ∧ 0 ≤ o.cubeRootEps ∧ 0 ≤ o.rtol)
    (probes : (n : Nat) → List (Fin n → ℝ)) : ∃ (ms ms' : Evaluable ℝ Int) (g g' : GN ℝ Int) (est est' : Evaluable ℝ Int) (B' : Nat → Nat → Nat → ℝ) (A' : Nat → Nat → ℝ)
    (V V' : List (List ℝ)), openMatchUpWith cenv defaultAdjustment [ordF1 a1 b1 k1, ordF2 b2 a2 k2] offsetModels = .ok ms ∧
    openMatchUpWith cenv defaultAdjustment [ordF1 a1 b1 k1] offsetModels = .ok ms' ∧ ms.mu.ks.length = 2 ∧ ms'.mu.ks.length = 1 ∧
    g.Solves ms ∧ g'.Solves ms' ∧ g.xyza = [y0, y1, y2, y3, y4] ∧ g.EstimateIs est ∧ g'.EstimateIs est' ∧
    SameEstimates [ordF1 a1 b1 k1, ordF2 b2 a2 k2] [ordF1 a1 b1 k1] id ms.mu ms'.mu est.mu.values est'.mu.values ∧
    ms'.KDerivatives est'.mu.values (g'.xyza.drop 2) B' A' ∧
    g.covariance (GN.minresObject o realSqrt probes) = .ok V ∧ g'.covariance (GN.minresObject o realSqrt probes) = .ok V' ∧
    0 < (V.getD 0 []).getD 0 0 ∧ (V.getD 0 []).getD 0 0 ≤ propagatedCov ms'.mu 1 B' A' 0 0 := by
  have hf := ord_solvable a1 b1 k1 b2 a2 k2
  have hf' := less_solvable a1 b1 k1
  have h : openMatchUpWith cenv defaultAdjustment [ordF1 a1 b1 k1, ordF2 b2 a2 k2] offsetModels = .ok _ := ord_opens a1 b1 a2 b2 k1 k2
  have h' : openMatchUpWith cenv defaultAdjustment [ordF1 a1 b1 k1] offsetModels = .ok _ := less_opens a1 b1 k1
  have hr := (ord_ready a1 b1 k1 b2 a2 k2).1
  have hr' := less_ready a1 b1 k1
  have hσ : SomeOf [ordF1 a1 b1 k1, ordF2 b2 a2 k2] [ordF1 a1 b1 k1] id := by
    refine ⟨?_, fun i j _ _ h => h, ?_⟩
    · intro i hi
      have hi' : i < 1 := hi
      show i < 2
      omega
    · intro i hi
      have hi' : i < 1 := hi
      have : i = 0 := by omega
      subst this
      rfl
  have hnew : NoNewSensor [ordF1 a1 b1 k1, ordF2 b2 a2 k2] [ordF1 a1 b1 k1] := by
    intro d hd s hs
    simp only [List.mem_cons, List.not_mem_nil, or_false] at hd
    refine ⟨_, List.mem_cons_self, ?_⟩
    rcases hd with rfl | rfl <;> rcases hs with rfl | rfl
    · exact ⟨_, .inl rfl, rfl⟩
    · exact ⟨_, .inr rfl, rfl⟩
    · exact ⟨_, .inr rfl, rfl⟩
    · exact ⟨_, .inl rfl, rfl⟩
  have hn : (ordCase ["A", "B"] [gnRef, offsetCal] [a1, b1, b2, a2] k1 k2).mu.Normalisable := by
    refine ⟨hr.wf, rfl, rfl, ?_, ?_⟩
    · intro b n u hu hb
      have hb4 : u ∈ List.replicate 4 ({ unc := .independent [1], uS_i := none } : UncBlock ℝ) := List.mem_of_getElem? hu
      have hn1 : n ∈ List.replicate 4 1 := List.mem_of_getElem? hb
      rw [(List.mem_replicate.1 hb4).2, (List.mem_replicate.1 hn1).2]
      exact .inl ⟨[1], rfl, by simp, .inl rfl⟩
    · simp [ordCase]
  have hn' : (lessCase a1 b1 k1).mu.Normalisable := by
    refine ⟨hr'.wf, rfl, rfl, ?_, ?_⟩
    · intro b n u hu hb
      have hb4 : u ∈ List.replicate 2 ({ unc := .independent [1], uS_i := none } : UncBlock ℝ) := List.mem_of_getElem? hu
      have hn1 : n ∈ List.replicate 2 1 := List.mem_of_getElem? hb
      rw [(List.mem_replicate.1 hb4).2, (List.mem_replicate.1 hn1).2]
      exact .inl ⟨[1], rfl, by simp, .inl rfl⟩
    · simp [lessCase]
  have hg := ordG_solves a1 b1 b2 a2 k1 k2 (l := [y0, y1, y2, y3, y4]) rfl
  have hg0 := lessG_solves a1 b1 k1 (l := [y0, y1, y4]) rfl
  obtain ⟨N, n, hs⟩ := hg.setup hr
  obtain ⟨t1, t2, t3⟩ := hs.sizes
  obtain ⟨est, hest0, _⟩ := estimate_ok hs hs.xlen
  have hest : (ordG ["A", "B"] [gnRef, offsetCal] [a1, b1, b2, a2] k1 k2 [y0, y1, y2, y3, y4]).EstimateIs est := by
    unfold GN.EstimateIs
    rw [t1, t3]
    exact hest0
  obtain ⟨x, est', hg', hest', hsame, hpar⟩ := C94_corresponding cenv_enum hσ hnew hf hf' h h' hn hn' hg hg0 hest
  have hxl : x.length = 3 := hg'.xyza
  have hg'' : ({ lessG a1 b1 k1 [y0, y1, y4] with xyza := x } : GN ℝ Int) = lessG a1 b1 k1 x := rfl
  rw [hg''] at hg' hest'
  have hSm : ∀ v : List ℝ, v.length = 1 → matTVec ([[1]] : List (List ℝ)) v = .ok (List.replicate 1 0) → v = List.replicate 1 0 := by
    intro v hv h0
    obtain ⟨v0, rfl⟩ := List.length_eq_one_iff.1 hv
    have e : matTVec [[1]] [v0] = .ok [1 * v0 + 0] := rfl
    have := h0.symm.trans e
    simp at this
    subst this
    rfl
  obtain ⟨l1, _⟩ := estimate_lengths hr' hn' hg' hest'
  have hid : ∀ B A, (lessCase a1 b1 k1).KDerivatives est'.mu.values (x.drop 2) B A → Identifies A 1 1 := by
    intro B A hBA
    obtain ⟨w0, w1, hw⟩ : ∃ w0 w1, est'.mu.values = [w0, w1] := by
      have hl : est'.mu.values.length = 2 := l1
      match est'.mu.values, hl with
      | [w0, w1], _ => exact ⟨w0, w1, rfl⟩
    obtain ⟨x0, x1, x2, rfl⟩ := less3 hxl
    rw [hw] at hBA
    have := (C88_unique (i := 0) rfl hBA (less_derivatives a1 b1 k1 w0 w1 x2) (show 0 < 1 by omega)).2 0 (show 0 < 1 by omega)
    intro d hd j hj
    have h0 := hd 0 (by omega)
    have : j = 0 := by omega
    subst this
    simp only [Finset.sum_range_one] at h0
    rw [‹A 0 0 = _›] at h0
    simpa using h0
  obtain ⟨J, V, hJ, hbd, hV⟩ := ordG_minres a1 b1 b2 a2 k1 k2 (l := [y0, y1, y2, y3, y4]) rfl ho probes
  obtain ⟨J', V', hJ', hbd', hV'⟩ := lessG_minres a1 b1 k1 hxl ho probes
  have hsm := ordG_smooth (l := [y0, y1, y2, y3, y4]) rfl hr
  have hsm' := lessG_smooth hxl hr'
  obtain ⟨est0, B, A, h0, hB⟩ := C88_derivatives hr hg hn hsm
  obtain ⟨est0', B', A', h0', hB'⟩ := C88_derivatives hr' hg' hn' hsm'
  have e1 : est0 = est := Except.ok.inj (h0.symm.trans hest)
  have e2 : est0' = est' := Except.ok.inj (h0'.symm.trans hest')
  subst e1 e2
  have ho2 : o.shift = 0 ∧ 0 < o.eps ∧ o.eps ≤ 1 / 10 ∧ 0 ≤ o.cubeRootEps ∧ 0 ≤ o.rtol := ⟨ho.1, ho.2.1, by linarith [ho.2.2.1], ho.2.2.2.1, ho.2.2.2.2⟩
  obtain ⟨_, _, _, hres⟩ := C94_minres cenv_enum hσ hnew hf hf' h h' hn hn' hr hr' hg hg' hsm hsm' hest hest' hsame hpar hB hB' (hid _ _ hB') hSm hSm
    hJ hJ' (show (0 : ℝ) < 1 / 10 by norm_num) hbd (show (0 : ℝ) < 1 / 10 by norm_num) hbd' ho2 ho2 hV hV'
  obtain ⟨r1, r2, _⟩ := hres 0 (show 0 < 1 by omega)
  exact ⟨_, _, _, _, est0, est0', B', A', V, V', h, h', rfl, rfl, hg, hg', rfl, hest, hest', hsame, hB', hV, hV', r1, r2 (show 0 < 1 by omega)⟩
/-- **C93 with the iterative solver, a case.** The files of `C93_case` in both orders: all hypotheses of `C93_minres` are met with the linear solver of the code, which returns in both. -/
theorem C93_minres_case (a1 b1 k1 b2 a2 k2 y0 y1 y2 y3 y4 : ℝ) {o : MinresOpts ℝ} (ho : o.shift = 0 ∧ 0 < o.eps ∧ o.eps ≤ 1 / 100 ∧ 0 ≤ o.cubeRootEps ∧ 0 ≤ o.rtol)
    (probes : (n : Nat) → List (Fin n → ℝ)) : ∃ (ms ms' : Evaluable ℝ Int) (g g' : GN ℝ Int) (est est' : Evaluable ℝ Int) (σ : Nat → Nat) (V V' : List (List ℝ))
    (J J' : Matrix (Fin 6) (Fin 5) ℝ) (b x b' x' : Fin 5 → ℝ),
    openMatchUpWith cenv defaultAdjustment [ordF1 a1 b1 k1, ordF2 b2 a2 k2] offsetModels = .ok ms ∧
    openMatchUpWith cenv defaultAdjustment [ordF2 b2 a2 k2, ordF1 a1 b1 k1] offsetModels = .ok ms' ∧ ms.mu.idx.sensors = ["A", "B"] ∧ ms'.mu.idx.sensors = ["B", "A"] ∧
    g.Solves ms ∧ g'.Solves ms' ∧ g.xyza = [y0, y1, y2, y3, y4] ∧
    g.EstimateIs est ∧ g'.EstimateIs est' ∧ SameEstimates [ordF1 a1 b1 k1, ordF2 b2 a2 k2] [ordF2 b2 a2 k2, ordF1 a1 b1 k1] σ ms.mu ms'.mu est.mu.values est'.mu.values ∧
    g.covariance (GN.minresObject o realSqrt probes) = .ok V ∧ g'.covariance (GN.minresObject o realSqrt probes) = .ok V' ∧
    g.IsJacobian J ∧ g'.IsJacobian J' ∧ GN.minresObject o realSqrt probes g (List.ofFn b) = .ok (List.ofFn x) ∧ GN.minresObject o realSqrt probes g' (List.ofFn b') = .ok (List.ofFn x') ∧
    |(V'.getD 0 []).getD 0 0 - (V.getD 0 []).getD 0 0| ≤
      (Real.sqrt (normSq b) * Real.sqrt (normSq (b - (Jᵀ * J) *ᵥ x)) + Real.sqrt (normSq b) * Real.sqrt (normSq (b - (Jᵀ * J) *ᵥ x))) / (2 * (1 / 10)) +
      (Real.sqrt (normSq b') * Real.sqrt (normSq (b' - (J'ᵀ * J') *ᵥ x')) + Real.sqrt (normSq b') * Real.sqrt (normSq (b' - (J'ᵀ * J') *ᵥ x'))) / (2 * (1 / 10)) := by
  have hf := ord_solvable a1 b1 k1 b2 a2 k2
  have h : openMatchUpWith cenv defaultAdjustment [ordF1 a1 b1 k1, ordF2 b2 a2 k2] offsetModels = .ok _ := ord_opens a1 b1 a2 b2 k1 k2
  have h' : openMatchUpWith cenv defaultAdjustment [ordF2 b2 a2 k2, ordF1 a1 b1 k1] offsetModels = .ok _ := ord_opens' a1 b1 a2 b2 k1 k2
  obtain ⟨hr, hr'⟩ := ord_ready a1 b1 k1 b2 a2 k2
  have hp : [ordF1 a1 b1 k1, ordF2 b2 a2 k2].Perm [ordF2 b2 a2 k2, ordF1 a1 b1 k1] := List.Perm.swap _ _ _
  have hσ : Reordered [ordF1 a1 b1 k1, ordF2 b2 a2 k2] [ordF2 b2 a2 k2, ordF1 a1 b1 k1] (fun i => 1 - i) := by
    refine ⟨rfl, ?_, ?_, ?_⟩
    · intro i hi
      show 1 - i < 2
      omega
    · intro i j hi hj he
      have hi' : i < 2 := hi
      have hj' : j < 2 := hj
      have he' : 1 - i = 1 - j := he
      omega
    · intro i hi
      rcases i with _ | _ | i
      · rfl
      · rfl
      · exact absurd hi (by simp)
  have hn : (ordCase ["A", "B"] [gnRef, offsetCal] [a1, b1, b2, a2] k1 k2).mu.Normalisable := by
    refine ⟨hr.wf, rfl, rfl, ?_, ?_⟩
    · intro b n u hu hb
      have hb4 : u ∈ List.replicate 4 ({ unc := .independent [1], uS_i := none } : UncBlock ℝ) := List.mem_of_getElem? hu
      have hn1 : n ∈ List.replicate 4 1 := List.mem_of_getElem? hb
      rw [(List.mem_replicate.1 hb4).2, (List.mem_replicate.1 hn1).2]
      exact .inl ⟨[1], rfl, by simp, .inl rfl⟩
    · simp [ordCase]
  have hg := ordG_solves a1 b1 b2 a2 k1 k2 (l := [y0, y1, y2, y3, y4]) rfl
  have hg0 := ordG_solves' b2 a2 a1 b1 k2 k1 (l := [y0, y1, y2, y3, y4]) rfl
  obtain ⟨N, n, hs⟩ := hg.setup hr
  obtain ⟨t1, t2, t3⟩ := hs.sizes
  obtain ⟨est, hest0, _⟩ := estimate_ok hs hs.xlen
  have hest : (ordG ["A", "B"] [gnRef, offsetCal] [a1, b1, b2, a2] k1 k2 [y0, y1, y2, y3, y4]).EstimateIs est := by
    unfold GN.EstimateIs
    rw [t1, t3]
    exact hest0
  obtain ⟨x, est', hg', hest', hsame, hpar⟩ := C93_corresponding cenv_enum hp hσ hf h h' hn hg hg0 hest
  have hxl : x.length = 5 := hg'.xyza
  have hg'' : ({ ordG ["B", "A"] [offsetCal, gnRef] [b2, a2, a1, b1] k2 k1 [y0, y1, y2, y3, y4] with xyza := x } : GN ℝ Int) =
    ordG ["B", "A"] [offsetCal, gnRef] [b2, a2, a1, b1] k2 k1 x := rfl
  rw [hg''] at hg' hest'
  have hSm : ∀ v : List ℝ, v.length = 1 → matTVec ([[1]] : List (List ℝ)) v = .ok (List.replicate 1 0) → v = List.replicate 1 0 := by
    intro v hv h0
    obtain ⟨v0, rfl⟩ := List.length_eq_one_iff.1 hv
    have e : matTVec [[1]] [v0] = .ok [1 * v0 + 0] := rfl
    have := h0.symm.trans e
    simp at this
    subst this
    rfl
  obtain ⟨l1, _⟩ := estimate_lengths hr hn hg hest
  have hid : ∀ B A, (ordCase ["A", "B"] [gnRef, offsetCal] [a1, b1, b2, a2] k1 k2).KDerivatives est.mu.values [y4] B A → Identifies A 2 1 := by
    intro B A hBA
    obtain ⟨w0, w1, w2, w3, hw⟩ : ∃ w0 w1 w2 w3, est.mu.values = [w0, w1, w2, w3] := by
      have hl : est.mu.values.length = 4 := l1
      match est.mu.values, hl with
      | [w0, w1, w2, w3], _ => exact ⟨w0, w1, w2, w3, rfl⟩
    rw [hw] at hBA
    have := (C88_unique (i := 0) rfl hBA (ord_derivatives a1 b1 b2 a2 k1 k2 w0 w1 w2 w3 y4) (show 0 < 2 by omega)).2 0 (show 0 < 1 by omega)
    intro d hd j hj
    have h0 := hd 0 (by omega)
    have : j = 0 := by omega
    subst this
    simp only [Finset.sum_range_one] at h0
    rw [‹A 0 0 = _›] at h0
    simpa using h0
  obtain ⟨J, V, hJ, hbd, hV⟩ := ordG_minres a1 b1 b2 a2 k1 k2 (l := [y0, y1, y2, y3, y4]) rfl ho probes
  obtain ⟨J', V', hJ', hbd', hV'⟩ := ordG_minres' a1 b1 b2 a2 k1 k2 hxl ho probes
  have hsm := ordG_smooth (l := [y0, y1, y2, y3, y4]) rfl hr
  have hsm' := ordG_smooth' hxl hr'
  obtain ⟨est0, B, A, h0, hB⟩ := C88_derivatives hr hg hn hsm
  obtain ⟨est0', B', A', h0', hB'⟩ := C88_derivatives hr' hg' (normalisable_perm cenv_enum hp hf h h' hn) hsm'
  have e1 : est0 = est := Except.ok.inj (h0.symm.trans hest)
  have e2 : est0' = est' := Except.ok.inj (h0'.symm.trans hest')
  subst e1 e2
  have ho2 : o.shift = 0 ∧ 0 < o.eps ∧ o.eps ≤ 1 / 10 ∧ 0 ≤ o.cubeRootEps ∧ 0 ≤ o.rtol := ⟨ho.1, ho.2.1, by linarith [ho.2.2.1], ho.2.2.2.1, ho.2.2.2.2⟩
  obtain ⟨_, b, x', b', x'', hb1, hb2, hres⟩ := C93_minres cenv_enum hp hσ hf h h' hn hr hr' hg hg' hsm hsm' hest hest' hsame hpar hB hB' (hid _ _ hB) hSm hSm
    hJ hJ' (show (0 : ℝ) < 1 / 10 by norm_num) hbd (show (0 : ℝ) < 1 / 10 by norm_num) hbd' ho2 ho2 hV hV'
  exact ⟨_, _, _, _, est0, est0', _, V, V', J, J', b 0, x' 0, b' 0, x'' 0, h, h', rfl, rfl, hg, hg', rfl, hest, hest', hsame, hV, hV', hJ, hJ', (hb1 0 (show 0 < 1 by omega)).2,
    (hb2 0 (show 0 < 1 by omega)).2, hres 0 0 (show 0 < 1 by omega) (show 0 < 1 by omega)⟩
end Verif
