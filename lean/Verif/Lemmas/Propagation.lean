import Verif.Spec.Propagation
import Verif.Props.ObjectiveRun
import Verif.Props.Jacobian
import Mathlib.LinearAlgebra.Matrix.NonsingularInverse
import Mathlib.LinearAlgebra.Matrix.ToLin
/-
The Jacobian in terms of the derivatives of K.
-/
set_option autoImplicit false
namespace Verif
open Finset (sum_congr)
variable {α δ : Type}

/-- K depends on the index tables, the values, the parameters and the models. -/
theorem kOf_estimate [Zero α] [Sub α] {ms est : Evaluable α δ} (h1 : est.mu.idx = ms.mu.idx) (h2 : est.constant = ms.constant) (h3 : est.sensor_model = ms.sensor_model)
    (h4 : est.adjustment_model = ms.adjustment_model)
    (h5 : est.mu.time1 = none ∧ est.mu.time2 = none ∧ est.mu.across_track_index1 = none ∧ est.mu.across_track_index2 = none ∧
        est.mu.along_track_index1 = none ∧ est.mu.along_track_index2 = none) : evaluateK est (.num 0) = ms.kOf est.mu.values est.a := by
  obtain ⟨t1, t2, x1, x2, l1, l2⟩ := h5
  have hs : ∀ a b, sideMeasurand est a b = sideMeasurand (ms.withData est.mu.values est.a) a b := by
    intro a b
    unfold sideMeasurand Evaluable.withData MatchUp.getSensorAcrossTrackIndex MatchUp.getSensorAlongTrackIndex MatchUp.getSensorTime
    simp only [h1, h2, h3, t1, t2, x1, x2, l1, l2]
  unfold Evaluable.kOf evaluateK evaluateAdjusted evaluateMeasurand
  simp only [hs, h1, h4]
  rfl

section
variable [Field α]

theorem preM_ident {g : GN α δ} {N_var nl : Nat} {c d : Nat} (hc : c < N_var + nl) (hd : d < N_var + nl) :
    ({ g with S := identS nl } : GN α δ).preM N_var c d = if c = d then (1 : α) else 0 := by
  unfold GN.preM
  by_cases h1 : c < N_var
  · rw [if_pos h1]
  · rw [if_neg h1]
    by_cases h2 : N_var ≤ d
    · rw [if_pos h2]
      have hg : (identS nl : List (List α)).getD (c - N_var) [] = (List.range nl).map fun j => if c - N_var = j then 1 else 0 := by
        have : c - N_var < nl := by omega
        simp [identS, List.getD, this]
      show ent ((identS nl : List (List α)).getD (c - N_var) []) (d - N_var) = _
      rw [hg]
      have hdl : d - N_var < nl := by omega
      simp only [ent, List.getD, List.getElem?_map, List.getElem?_range hdl, Option.map_some, Option.getD_some]
      by_cases hcd : c = d
      · rw [if_pos hcd, if_pos (by omega)]
      · rw [if_neg hcd, if_neg (by omega)]
    · rw [if_neg h2, if_neg (by omega)]

/-- Elements of the values of an estimate. -/
theorem values_ext {ms : Evaluable α δ} (hw : ms.mu.values.length = ms.mu.idx.N_var.sum) {u v : List α} (hu : u.length = ms.mu.values.length) (hv : v.length = ms.mu.values.length)
    (h : ∀ p ∈ ms.mu.positions, ms.mu.elem u p.1 p.2 = ms.mu.elem v p.1 p.2) : u = v := by
  refine slices_eq (N := ms.mu.idx.N_var) (by rw [hu, hw]) (by rw [hv, hw]) ?_
  intro b c hc
  have hle : (ms.mu.idx.N_var.take b).sum + c ≤ ms.mu.values.length := by
    have q1 := take_succ_sum _ hc
    have q2 := take_sum_le_take_sum ms.mu.idx.N_var (show b + 1 ≤ ms.mu.idx.N_var.length from (List.getElem?_eq_some_iff.1 hc).1)
    rw [List.take_length, ← hw] at q2
    omega
  rw [slice_eq_vector (by omega), slice_eq_vector (by omega)]
  rw [Nat.add_sub_cancel_left]
  refine vector_congr fun r hr => ?_
  have hbl : ms.mu.blockLen b = c := by simp [MatchUp.blockLen, List.getD, hc]
  exact h ⟨b, r⟩ (positions_mem (List.getElem?_eq_some_iff.1 hc).1 (by rw [hbl]; exact hr))

/-- **Algebra of propagation.** `J = (1 0; D⁻¹BR D⁻¹A)`; a solution of `JᵀJ (z, p) = (0, e)` gives `w` with `(D² + B R Rᵀ Bᵀ) w = A p` and `Aᵀ w = e`. -/
theorem schur {Nv nl Nm j : Nat} {J : Nat → Nat → α} {G A : Nat → Nat → α} {u z : Nat → α} (hu : ∀ i, i < Nm → u i ≠ 0)
    (h1 : ∀ r c, r < Nv → c < Nv + nl → J r c = if r = c then 1 else 0) (h2 : ∀ i c, i < Nm → c < Nv → J (Nv + i) c = G i c / u i)
    (h3 : ∀ i q, i < Nm → q < nl → J (Nv + i) (Nv + q) = A i q / u i)
    (h : ∀ c, c < Nv + nl → ∑ r ∈ Finset.range (Nv + Nm), J r c * ∑ d ∈ Finset.range (Nv + nl), J r d * z d = if c = Nv + j then 1 else 0) (hj : j < nl) :
    ∃ w : Nat → α, (∀ q, q < nl → ∑ i ∈ Finset.range Nm, A i q * w i = if q = j then 1 else 0) ∧
      ∀ i, i < Nm → u i * u i * w i + ∑ i' ∈ Finset.range Nm, (∑ c ∈ Finset.range Nv, G i c * G i' c) * w i' = ∑ q ∈ Finset.range nl, A i q * z (Nv + q) := by
  let y : Nat → α := fun r => ∑ d ∈ Finset.range (Nv + nl), J r d * z d
  have hy1 : ∀ r, r < Nv → y r = z r := by
    intro r hr
    show ∑ d ∈ Finset.range (Nv + nl), J r d * z d = z r
    rw [sum_congr rfl fun d hd => by rw [h1 r d hr (Finset.mem_range.1 hd)]]
    simp only [ite_mul, one_mul, zero_mul]
    rw [Finset.sum_ite_eq, if_pos (Finset.mem_range.2 (by omega))]
  have hy2 : ∀ i, i < Nm → u i * y (Nv + i) = ∑ c ∈ Finset.range Nv, G i c * z c + ∑ q ∈ Finset.range nl, A i q * z (Nv + q) := by
    intro i hi
    show u i * ∑ d ∈ Finset.range (Nv + nl), J (Nv + i) d * z d = _
    rw [Finset.sum_range_add, mul_add, Finset.mul_sum, Finset.mul_sum]
    congr 1
    · refine sum_congr rfl fun c hc => ?_
      rw [h2 i c hi (Finset.mem_range.1 hc)]
      have := hu i hi
      field_simp
    · refine sum_congr rfl fun q hq => ?_
      rw [h3 i q hi (Finset.mem_range.1 hq)]
      have := hu i hi
      field_simp
  have hz : ∀ c, c < Nv → z c = - ∑ i ∈ Finset.range Nm, G i c * (y (Nv + i) / u i) := by
    intro c hc
    have := h c (by omega)
    rw [if_neg (by omega), Finset.sum_range_add] at this
    rw [sum_congr rfl fun r hr => by rw [h1 r c (Finset.mem_range.1 hr) (by omega)]] at this
    simp only [ite_mul, one_mul, zero_mul] at this
    rw [Finset.sum_ite_eq' (Finset.range Nv) c, if_pos (Finset.mem_range.2 hc)] at this
    have e : ∑ d ∈ Finset.range (Nv + nl), J c d * z d = z c := hy1 c hc
    rw [e] at this
    rw [eq_neg_iff_add_eq_zero, ← this]
    congr 1
    refine sum_congr rfl fun i hi => ?_
    rw [h2 i c (Finset.mem_range.1 hi) hc]
    show _ = G i c / u i * y (Nv + i)
    ring
  refine ⟨fun i => y (Nv + i) / u i, ?_, ?_⟩
  · intro q hq
    have := h (Nv + q) (by omega)
    rw [Finset.sum_range_add, Finset.sum_eq_zero (s := Finset.range Nv) (fun r hr => by
      have := Finset.mem_range.1 hr
      rw [h1 r _ this (by omega), if_neg (by omega), zero_mul]), zero_add] at this
    rw [show (if q = j then (1 : α) else 0) = if Nv + q = Nv + j then 1 else 0 by simp, ← this]
    refine sum_congr rfl fun i hi => ?_
    rw [h3 i q (Finset.mem_range.1 hi) hq]
    show _ = A i q / u i * y (Nv + i)
    ring
  · intro i hi
    have e1 : u i * u i * (y (Nv + i) / u i) = u i * y (Nv + i) := by
      have := hu i hi
      field_simp
    simp only
    rw [e1, hy2 i hi]
    have e2 : ∑ c ∈ Finset.range Nv, G i c * z c = - ∑ i' ∈ Finset.range Nm, (∑ c ∈ Finset.range Nv, G i c * G i' c) * (y (Nv + i') / u i') := by
      rw [sum_congr rfl fun c hc => by rw [hz c (Finset.mem_range.1 hc)]]
      simp only [mul_neg, Finset.sum_neg_distrib, Finset.mul_sum, Finset.sum_mul]
      rw [Finset.sum_comm]
      congr 1
      exact sum_congr rfl fun i' _ => sum_congr rfl fun c _ => by ring
    rw [e2]
    ring

/-- `Q W = A C` and `Aᵀ W = 1` make `C` the inverse of `Aᵀ Q⁻¹ A`. -/
theorem gls_inverse_matrix {T P : Nat} {Q : Matrix (Fin T) (Fin T) α} {A W : Matrix (Fin T) (Fin P) α} {C : Matrix (Fin P) (Fin P) α} (hQ : ∀ y, Q.mulVec y = 0 → y = 0)
    (h1 : Q * W = A * C) (h2 : A.transpose * W = 1) : IsUnit Q.det ∧ IsUnit (A.transpose * Q⁻¹ * A).det ∧ C = (A.transpose * Q⁻¹ * A)⁻¹ := by
  have hu : IsUnit Q.det := by
    rw [← Matrix.isUnit_iff_isUnit_det, ← Matrix.mulVec_injective_iff_isUnit]
    intro a b hab
    have := hQ (a - b) (by rw [Matrix.mulVec_sub, sub_eq_zero]; exact hab)
    exact sub_eq_zero.1 this
  have hW : W = Q⁻¹ * (A * C) := by
    rw [← h1, Matrix.nonsing_inv_mul_cancel_left _ _ hu]
  have h3 : A.transpose * Q⁻¹ * A * C = 1 := by
    rw [Matrix.mul_assoc, Matrix.mul_assoc, ← hW, h2]
  exact ⟨hu, Matrix.isUnit_det_of_right_inverse h3, (Matrix.inv_eq_right_inv h3).symm⟩
end
end Verif
