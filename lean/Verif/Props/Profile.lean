import Verif.Spec.Profile
import Verif.Props.NormalEquations
import Mathlib.Algebra.QuadraticDiscriminant
import Mathlib.LinearAlgebra.Matrix.ToLinearEquiv
/-
Property C90: for affine models, the cost around its least value is the quadratic form of the propagated covariance.
-/
set_option autoImplicit false
namespace Verif
open Finset (sum_congr)
open Matrix
variable {δ : Type}

/-- Completing the squares in the errors-in-variables cost. -/
theorem eiv_square {T C : Nat} {R : Fin T → Nat → ℝ} {u ρ y e : Fin T → ℝ} {w : Nat → ℝ}
    (hQ : ∀ i, u i * u i * y i + ∑ i', (∑ c ∈ Finset.range C, R i c * R i' c) * y i' = ρ i) (he : ∀ i, u i * e i = ρ i + ∑ c ∈ Finset.range C, R i c * w c) :
    ∑ c ∈ Finset.range C, w c * w c + ∑ i, e i * e i = ∑ i, ρ i * y i +
      (∑ c ∈ Finset.range C, (w c + ∑ i, R i c * y i) ^ 2 + ∑ i, (e i - u i * y i) ^ 2) := by
  have h1 : ∑ c ∈ Finset.range C, (w c + ∑ i, R i c * y i) ^ 2 = ∑ c ∈ Finset.range C, w c * w c + 2 * ∑ i, y i * ∑ c ∈ Finset.range C, R i c * w c +
      ∑ i, y i * ∑ i', (∑ c ∈ Finset.range C, R i c * R i' c) * y i' := by
    have e1 : ∑ i, y i * ∑ c ∈ Finset.range C, R i c * w c = ∑ c ∈ Finset.range C, w c * ∑ i, R i c * y i := by
      simp only [Finset.mul_sum]
      rw [Finset.sum_comm]
      exact sum_congr rfl fun c _ => sum_congr rfl fun i _ => by ring
    have e2 : ∑ i, y i * ∑ i', (∑ c ∈ Finset.range C, R i c * R i' c) * y i' = ∑ c ∈ Finset.range C, (∑ i, R i c * y i) * ∑ i', R i' c * y i' := by
      simp only [Finset.mul_sum, Finset.sum_mul]
      rw [Finset.sum_congr rfl fun i _ => Finset.sum_comm, Finset.sum_comm]
      exact sum_congr rfl fun c _ => sum_congr rfl fun i _ => sum_congr rfl fun i' _ => by ring
    rw [e1, e2, Finset.mul_sum, ← Finset.sum_add_distrib, ← Finset.sum_add_distrib]
    exact sum_congr rfl fun c _ => by ring
  have h2 : ∑ i, (e i - u i * y i) ^ 2 = ∑ i, e i * e i - 2 * ∑ i, y i * (ρ i + ∑ c ∈ Finset.range C, R i c * w c) + ∑ i, y i * (u i * u i * y i) := by
    rw [Finset.mul_sum, ← Finset.sum_sub_distrib, ← Finset.sum_add_distrib]
    refine sum_congr rfl fun i _ => ?_
    rw [← he i]
    ring
  have h3 : ∑ i, y i * (u i * u i * y i) + ∑ i, y i * ∑ i', (∑ c ∈ Finset.range C, R i c * R i' c) * y i' = ∑ i, ρ i * y i := by
    rw [← Finset.sum_add_distrib]
    refine sum_congr rfl fun i _ => ?_
    rw [← mul_add, hQ i, mul_comm]
  have h4 : ∑ i, y i * (ρ i + ∑ c ∈ Finset.range C, R i c * w c) = ∑ i, ρ i * y i + ∑ i, y i * ∑ c ∈ Finset.range C, R i c * w c := by
    rw [← Finset.sum_add_distrib]
    exact sum_congr rfl fun i _ => by ring
  rw [h1, h2, h4]
  linarith

section
variable {g : GN ℝ δ} {ms : Evaluable ℝ δ} {labels clabels : List String} {m n : Nat} {N : List Nat}

/-- The covariance of K can be inverted. -/
theorem kCovM_unit (h : g.Setup ms labels clabels m N n) (hn : ms.mu.Normalisable) (B : Nat → Nat → Nat → ℝ) : IsUnit (kCovM ms.mu B).det := by
  by_contra hu
  have h0 : (kCovM ms.mu B).det = 0 := by simpa using hu
  obtain ⟨y, hy1, hy2⟩ := Matrix.exists_mulVec_eq_zero_iff.2 h0
  exact hy1 (kCovM_injective h hn.unck B y hy2)

theorem kCovM_symm (h : g.Setup ms labels clabels m N n) (B : Nat → Nat → Nat → ℝ) : (kCovM ms.mu B)ᵀ = kCovM ms.mu B := by
  ext i i'
  show ms.mu.kCov B i' i = ms.mu.kCov B i i'
  unfold MatchUp.kCov
  rw [kCov_root h, kCov_root h]
  congr 1
  · by_cases hii : (i : Nat) = i'
    · rw [if_pos hii, if_pos hii.symm, hii]
    · rw [if_neg hii, if_neg (Ne.symm hii)]
  · exact sum_congr rfl fun c _ => mul_comm _ _

/-- The cost of an estimate, with the squares completed. -/
theorem affine_cost (h : g.Setup ms labels clabels m N n) (hg : g.Solves ms) (hn : ms.mu.Normalisable) {B : Nat → Nat → Nat → ℝ} {A : Nat → Nat → ℝ}
    (hK : ms.AffineK labels.length B A) {x a k f : List ℝ} (hx : x.length = N.sum + n + labels.length) (ha : x.drop (N.sum + n) = a) (hk : ms.kOf ms.mu.values a = .ok k)
    (hf : g.calcF x = .ok f) :
    dotp f f = kMisfit ms.mu k ⬝ᵥ (kCovM ms.mu B)⁻¹ *ᵥ kMisfit ms.mu k +
      (∑ c ∈ Finset.range (N.sum + n), (ent x c - ent g.hd.mu.values c + ∑ i : Fin ms.mu.ks.length, (∑ p ∈ ms.mu.positions, B i p.1 p.2 * g.root ms (N.sum + n) n p c) *
          ((kCovM ms.mu B)⁻¹ *ᵥ kMisfit ms.mu k) i) ^ 2 +
        ∑ i : Fin ms.mu.ks.length, ((k.getD i 0 - ms.mu.ks.getD i 0 + ∑ c ∈ Finset.range (N.sum + n), (∑ p ∈ ms.mu.positions, B i p.1 p.2 * g.root ms (N.sum + n) n p c) *
          (ent x c - ent g.hd.mu.values c)) / ent ms.mu.unck.flatten i - ent ms.mu.unck.flatten i * ((kCovM ms.mu B)⁻¹ *ᵥ kMisfit ms.mu k) i) ^ 2) := by
  have hwf := h.ready.wf
  have hkl : ms.mu.ks.length = ms.mu.idx.Nm.sum := hwf.ks
  have hfl : ms.mu.unck.flatten.length = ms.mu.idx.Nm.sum := by rw [List.length_flatten, hwf.unck]
  obtain ⟨est, k1, q1, q2, q3, q4, q5, q6, q7⟩ := objective_parts h hg.norm hn hx hf
  obtain ⟨est3, t1, t2, t3, t4, t5, t6, t7, t8, t9⟩ := estimate_ok h hx
  rw [q1] at t1; cases t1
  have hkk := kOf_estimate t2 t5 t6 t7 t8
  rw [q2, t4, ha] at hkk
  have hal : a.length = labels.length := by rw [← ha, List.length_drop, hx]; omega
  obtain ⟨k2, k3, b1, b2, b3⟩ := hK ms.mu.values a est.mu.values a rfl q4 hal hal
  rw [hk] at b1; cases b1
  rw [← hkk] at b2; cases b2
  have hu : ∀ i, i < ms.mu.ks.length → ent ms.mu.unck.flatten i ≠ 0 := by
    intro i hi
    have hl : i < ms.mu.unck.flatten.length := by rw [hfl, ← hkl]; exact hi
    rw [← getElem_ent hl]
    obtain ⟨u, hu1, hu2⟩ := List.mem_flatten.1 (List.getElem_mem hl)
    exact hn.unck u hu1 _ hu2
  have hdiff : ∀ i, i < ms.mu.ks.length → k1.getD i 0 = k.getD i 0 + ∑ c ∈ Finset.range (N.sum + n), (∑ p ∈ ms.mu.positions, B i p.1 p.2 * g.root ms (N.sum + n) n p c) *
      (ent x c - ent g.hd.mu.values c) := by
    intro i hi
    have e := b3 i hi
    simp only [sub_self, mul_zero, Finset.sum_const_zero, add_zero] at e
    rw [pairing_eq] at e
    rw [← sub_eq_iff_eq_add', e]
    simp only [Finset.sum_mul]
    rw [Finset.sum_comm]
    refine sum_congr rfl fun p hp => ?_
    rw [q6 p hp, q7 p hp, ← Finset.sum_sub_distrib, Finset.mul_sum]
    exact sum_congr rfl fun c _ => by ring
  have hobj : ms.mu.kObjective (List.zipWith (· - ·) k1 ms.mu.ks) = ∑ i : Fin ms.mu.ks.length, (k.getD i 0 - ms.mu.ks.getD i 0 + ∑ c ∈ Finset.range (N.sum + n),
      (∑ p ∈ ms.mu.positions, B i p.1 p.2 * g.root ms (N.sum + n) n p c) * (ent x c - ent g.hd.mu.values c)) / ent ms.mu.unck.flatten i *
      ((k.getD i 0 - ms.mu.ks.getD i 0 + ∑ c ∈ Finset.range (N.sum + n),
      (∑ p ∈ ms.mu.positions, B i p.1 p.2 * g.root ms (N.sum + n) n p c) * (ent x c - ent g.hd.mu.values c)) / ent ms.mu.unck.flatten i) := by
    have hzl : (List.zipWith (· / ·) (List.zipWith (· - ·) k1 ms.mu.ks) ms.mu.unck.flatten).length = ms.mu.ks.length := by
      rw [List.length_zipWith, List.length_zipWith, q3, hfl, ← hkl, Nat.min_self, Nat.min_self]
    unfold MatchUp.kObjective
    rw [dotp_range hzl hzl, ← Fin.sum_univ_eq_sum_range (fun r => (List.zipWith (· / ·) (List.zipWith (· - ·) k1 ms.mu.ks) ms.mu.unck.flatten).getD r 0 *
      (List.zipWith (· / ·) (List.zipWith (· - ·) k1 ms.mu.ks) ms.mu.unck.flatten).getD r 0)]
    refine sum_congr rfl fun i _ => ?_
    have hi := i.2
    have l1 : (i : Nat) < k1.length := by rw [q3]; exact hi
    have l2 : (i : Nat) < ms.mu.unck.flatten.length := by rw [hfl, ← hkl]; exact hi
    have e : (List.zipWith (· / ·) (List.zipWith (· - ·) k1 ms.mu.ks) ms.mu.unck.flatten).getD i 0 = (k1.getD i 0 - ms.mu.ks.getD i 0) / ent ms.mu.unck.flatten i := by
      unfold ent
      simp only [List.getD, List.getElem?_zipWith]
      rw [List.getElem?_eq_getElem l1, List.getElem?_eq_getElem l2, List.getElem?_eq_getElem hi]
      rfl
    rw [e, hdiff i hi]
    congr 2 <;> ring
  rw [q5, hobj]
  refine eiv_square (R := fun i c => ∑ p ∈ ms.mu.positions, B i p.1 p.2 * g.root ms (N.sum + n) n p c) (u := fun i => ent ms.mu.unck.flatten i) (ρ := kMisfit ms.mu k)
    (y := (kCovM ms.mu B)⁻¹ *ᵥ kMisfit ms.mu k) (e := fun i : Fin ms.mu.ks.length => (k.getD i 0 - ms.mu.ks.getD i 0 + ∑ c ∈ Finset.range (N.sum + n),
      (∑ p ∈ ms.mu.positions, B i p.1 p.2 * g.root ms (N.sum + n) n p c) * (ent x c - ent g.hd.mu.values c)) / ent ms.mu.unck.flatten i)
    (w := fun c => ent x c - ent g.hd.mu.values c) ?_ ?_
  · intro i
    have e := congrFun (show kCovM ms.mu B *ᵥ ((kCovM ms.mu B)⁻¹ *ᵥ kMisfit ms.mu k) = kMisfit ms.mu k by
      rw [Matrix.mulVec_mulVec, Matrix.mul_nonsing_inv _ (kCovM_unit h hn B), Matrix.one_mulVec]) i
    rw [← e]
    generalize (kCovM ms.mu B)⁻¹ *ᵥ kMisfit ms.mu k = y
    show _ = ∑ i' : Fin ms.mu.ks.length, ms.mu.kCov B i i' * y i'
    unfold MatchUp.kCov
    simp only [add_mul, Finset.sum_add_distrib, Fin.val_inj, ite_mul, zero_mul]
    rw [Finset.sum_ite_eq, if_pos (Finset.mem_univ _)]
    congr 1
    exact sum_congr rfl fun i' _ => by rw [kCov_root h]
  · intro i
    have := hu i i.2
    show ent ms.mu.unck.flatten i * (_ / ent ms.mu.unck.flatten i) = _
    rw [mul_div_cancel₀ _ this]
    rfl
/-- The quadratic form of the covariance of K is positive. -/
theorem kCovM_pos (h : g.Setup ms labels clabels m N n) (hn : ms.mu.Normalisable) (B : Nat → Nat → Nat → ℝ) (y : Fin ms.mu.ks.length → ℝ) :
    0 ≤ y ⬝ᵥ kCovM ms.mu B *ᵥ y ∧ (y ⬝ᵥ kCovM ms.mu B *ᵥ y = 0 → y = 0) := by
  have hwf := h.ready.wf
  have hkl : ms.mu.ks.length = ms.mu.idx.Nm.sum := hwf.ks
  have hfl : ms.mu.unck.flatten.length = ms.mu.ks.length := by rw [List.length_flatten, hwf.unck, hkl]
  have e : y ⬝ᵥ kCovM ms.mu B *ᵥ y = _ := kCovM_form h B y
  have p1 : 0 ≤ ∑ i : Fin ms.mu.ks.length, (ent ms.mu.unck.flatten i * y i) ^ 2 := Finset.sum_nonneg fun i _ => sq_nonneg _
  have p2 : 0 ≤ ∑ c ∈ Finset.range (N.sum + n), (∑ i : Fin ms.mu.ks.length, y i * ∑ p ∈ ms.mu.positions, B i p.1 p.2 * g.root ms (N.sum + n) n p c) ^ 2 := Finset.sum_nonneg fun i _ => sq_nonneg _
  rw [e]
  refine ⟨add_nonneg p1 p2, fun h0 => ?_⟩
  have p3 : ∑ i : Fin ms.mu.ks.length, (ent ms.mu.unck.flatten i * y i) ^ 2 = 0 := by linarith
  funext i
  have p4 := (Finset.sum_eq_zero_iff_of_nonneg fun i _ => sq_nonneg _).1 p3 i (Finset.mem_univ _)
  have p5 : ent ms.mu.unck.flatten i * y i = 0 := by simpa using p4
  rcases mul_eq_zero.1 p5 with p6 | p6
  · exfalso
    have hl : (i : Nat) < ms.mu.unck.flatten.length := by rw [hfl]; exact i.2
    rw [← getElem_ent hl] at p6
    obtain ⟨u, hu1, hu2⟩ := List.mem_flatten.1 (List.getElem_mem hl)
    exact hn.unck u hu1 _ hu2 p6
  · exact p6

/-- The matrix `Aᵀ Q⁻¹ A` is symmetric and positive definite. -/
theorem information_pos (h : g.Setup ms labels clabels m N n) (hn : ms.mu.Normalisable) (B : Nat → Nat → Nat → ℝ) {A : Nat → Nat → ℝ} {P : Nat}
    (hA : Identifies A ms.mu.ks.length P) :
    ((kParM ms.mu.ks.length P A)ᵀ * (kCovM ms.mu B)⁻¹ * kParM ms.mu.ks.length P A)ᵀ = (kParM ms.mu.ks.length P A)ᵀ * (kCovM ms.mu B)⁻¹ * kParM ms.mu.ks.length P A ∧
    IsUnit ((kParM ms.mu.ks.length P A)ᵀ * (kCovM ms.mu B)⁻¹ * kParM ms.mu.ks.length P A).det ∧
    ∀ y, 0 ≤ y ⬝ᵥ ((kParM ms.mu.ks.length P A)ᵀ * (kCovM ms.mu B)⁻¹ * kParM ms.mu.ks.length P A) *ᵥ y ∧
      (y ⬝ᵥ ((kParM ms.mu.ks.length P A)ᵀ * (kCovM ms.mu B)⁻¹ * kParM ms.mu.ks.length P A) *ᵥ y = 0 → y = 0) := by
  have hu := kCovM_unit h hn B
  have hsi : ((kCovM ms.mu B)⁻¹)ᵀ = (kCovM ms.mu B)⁻¹ := by rw [Matrix.transpose_nonsing_inv, kCovM_symm h]
  have key : ∀ y, 0 ≤ y ⬝ᵥ ((kParM ms.mu.ks.length P A)ᵀ * (kCovM ms.mu B)⁻¹ * kParM ms.mu.ks.length P A) *ᵥ y ∧
      (y ⬝ᵥ ((kParM ms.mu.ks.length P A)ᵀ * (kCovM ms.mu B)⁻¹ * kParM ms.mu.ks.length P A) *ᵥ y = 0 → y = 0) := by
    intro y
    have e : y ⬝ᵥ ((kParM ms.mu.ks.length P A)ᵀ * (kCovM ms.mu B)⁻¹ * kParM ms.mu.ks.length P A) *ᵥ y =
        ((kCovM ms.mu B)⁻¹ *ᵥ (kParM ms.mu.ks.length P A *ᵥ y)) ⬝ᵥ kCovM ms.mu B *ᵥ ((kCovM ms.mu B)⁻¹ *ᵥ (kParM ms.mu.ks.length P A *ᵥ y)) := by
      rw [Matrix.mulVec_mulVec (v := kParM ms.mu.ks.length P A *ᵥ y), Matrix.mul_nonsing_inv _ hu, Matrix.one_mulVec, ← Matrix.mulVec_mulVec, ← Matrix.mulVec_mulVec,
        Matrix.dotProduct_mulVec, Matrix.vecMul_transpose, dotProduct_comm]
    obtain ⟨p1, p2⟩ := kCovM_pos h hn B ((kCovM ms.mu B)⁻¹ *ᵥ (kParM ms.mu.ks.length P A *ᵥ y))
    rw [e]
    refine ⟨p1, fun h0 => ?_⟩
    have h1 := p2 h0
    have h2 : kParM ms.mu.ks.length P A *ᵥ y = 0 := by
      have := congrArg (fun v => kCovM ms.mu B *ᵥ v) h1
      simpa only [Matrix.mulVec_mulVec, Matrix.mul_nonsing_inv_cancel_left _ _ hu, Matrix.mulVec_zero] using this
    funext j
    have h3 := hA (fun j => if hj : j < P then y ⟨j, hj⟩ else 0) (by
      intro i hi
      have := congrFun h2 ⟨i, hi⟩
      rw [← Fin.sum_univ_eq_sum_range (fun j => A i j * if hj : j < P then y ⟨j, hj⟩ else 0)]
      refine Eq.trans ?_ this
      exact sum_congr rfl fun j _ => by simp [kParM]) j j.2
    simpa using h3
  refine ⟨?_, ?_, key⟩
  · rw [Matrix.transpose_mul, Matrix.transpose_mul, hsi, Matrix.transpose_transpose, Matrix.mul_assoc]
  · rw [← Matrix.isUnit_iff_isUnit_det, ← Matrix.mulVec_injective_iff_isUnit]
    intro a b hab
    refine sub_eq_zero.1 ((key (a - b)).2 ?_)
    rw [Matrix.mulVec_sub, sub_eq_zero.2 hab, dotProduct_zero]
end

/-- **C90, profile.** For models affine in values and parameters, the least cost with given parameters is `ρᵀ Q⁻¹ ρ`, where `ρ` are the differences between K for the measured values
and the K of the files, and `Q` is the covariance which the declared uncertainties give to K. -/
theorem C90_profile {ms : Evaluable ℝ δ} {labels clabels : List String} {m : Nat} (h : ms.SolverReady labels clabels m) {g : GN ℝ δ} (hg : g.Solves ms)
    (hn : ms.mu.Normalisable) {B : Nat → Nat → Nat → ℝ} {A : Nat → Nat → ℝ} (hK : ms.AffineK g.hd.a.length B A) {a k : List ℝ} (ha : a.length = g.hd.a.length)
    (hk : ms.kOf ms.mu.values a = .ok k) : g.ProfileCost a (kMisfit ms.mu k ⬝ᵥ (kCovM ms.mu B)⁻¹ *ᵥ kMisfit ms.mu k) := by
  obtain ⟨N, n, hs⟩ := hg.setup h
  obtain ⟨s1, s2, s3⟩ := hs.sizes
  have hwf := h.wf
  have hkl : ms.mu.ks.length = ms.mu.idx.Nm.sum := hwf.ks
  have hfl : ms.mu.unck.flatten.length = ms.mu.ks.length := by rw [List.length_flatten, hwf.unck, hkl]
  rw [s2] at hK
  have hu : ∀ i, i < ms.mu.ks.length → ent ms.mu.unck.flatten i ≠ 0 := by
    intro i hi
    have hl : i < ms.mu.unck.flatten.length := by rw [hfl]; exact hi
    rw [← getElem_ent hl]
    obtain ⟨u, hu1, hu2⟩ := List.mem_flatten.1 (List.getElem_mem hl)
    exact hn.unck u hu1 _ hu2
  constructor
  · obtain ⟨y, hy⟩ : ∃ y, y = (kCovM ms.mu B)⁻¹ *ᵥ kMisfit ms.mu k := ⟨_, rfl⟩
    obtain ⟨x, hxd⟩ : ∃ x, x = vector (N.sum + n) (fun c => ent g.hd.mu.values c - ∑ i : Fin ms.mu.ks.length,
      (∑ p ∈ ms.mu.positions, B i p.1 p.2 * g.root ms (N.sum + n) n p c) * y i) ++ a := ⟨_, rfl⟩
    have hxl : x.length = N.sum + n + labels.length := by rw [hxd, List.length_append, vector_length, ha, s2]
    have hxa : x.drop (N.sum + n) = a := by
      rw [hxd, List.drop_append_of_le_length (by rw [vector_length]), List.drop_of_length_le (by rw [vector_length]), List.nil_append]
    have hxe : ∀ c, c < N.sum + n → ent x c - ent g.hd.mu.values c = -∑ i : Fin ms.mu.ks.length, (∑ p ∈ ms.mu.positions, B i p.1 p.2 * g.root ms (N.sum + n) n p c) * y i := by
      intro c hc
      have hap : ∀ F : Nat → ℝ, ent (vector (N.sum + n) F ++ a) c = ent (vector (N.sum + n) F) c := by
        intro F
        unfold ent
        simp only [List.getD]
        rw [List.getElem?_append_left (by rw [vector_length]; exact hc)]
      rw [hxd, hap, ent_vector hc]
      ring
    obtain ⟨f, hf, _⟩ := calcF_total hs hxl
    refine ⟨x, by rw [hxl, hs.xlen], by rw [s1]; exact hxa, f, hf, ?_⟩
    rw [affine_cost hs hg hn hK hxl hxa hk hf, ← hy]
    have hQ : ∀ i : Fin ms.mu.ks.length, ent ms.mu.unck.flatten i * ent ms.mu.unck.flatten i * y i + ∑ i' : Fin ms.mu.ks.length, (∑ c ∈ Finset.range (N.sum + n),
        (∑ p ∈ ms.mu.positions, B i p.1 p.2 * g.root ms (N.sum + n) n p c) * ∑ p ∈ ms.mu.positions, B i' p.1 p.2 * g.root ms (N.sum + n) n p c) * y i' = kMisfit ms.mu k i := by
      intro i
      have e := congrFun (show kCovM ms.mu B *ᵥ y = kMisfit ms.mu k by
        rw [hy, Matrix.mulVec_mulVec, Matrix.mul_nonsing_inv _ (kCovM_unit hs hn B), Matrix.one_mulVec]) i
      rw [← e]
      show _ = ∑ i' : Fin ms.mu.ks.length, ms.mu.kCov B i i' * y i'
      unfold MatchUp.kCov
      simp only [add_mul, Finset.sum_add_distrib, Fin.val_inj, ite_mul, zero_mul]
      rw [Finset.sum_ite_eq, if_pos (Finset.mem_univ _)]
      congr 1
      exact sum_congr rfl fun i' _ => by rw [kCov_root hs]
    rw [Finset.sum_eq_zero (s := Finset.range (N.sum + n)), Finset.sum_eq_zero (s := Finset.univ), add_zero, add_zero]
    · intro i _
      have hi := hu i i.2
      have e1 : ∑ c ∈ Finset.range (N.sum + n), (∑ p ∈ ms.mu.positions, B i p.1 p.2 * g.root ms (N.sum + n) n p c) * (ent x c - ent g.hd.mu.values c) =
          -∑ i' : Fin ms.mu.ks.length, (∑ c ∈ Finset.range (N.sum + n),
            (∑ p ∈ ms.mu.positions, B i p.1 p.2 * g.root ms (N.sum + n) n p c) * ∑ p ∈ ms.mu.positions, B i' p.1 p.2 * g.root ms (N.sum + n) n p c) * y i' := by
        rw [sum_congr rfl fun c hc => by rw [hxe c (Finset.mem_range.1 hc)]]
        simp only [mul_neg, Finset.sum_neg_distrib]
        congr 1
        rw [sum_congr rfl fun c _ => Finset.mul_sum _ _ _, Finset.sum_comm]
        refine sum_congr rfl fun i' _ => ?_
        rw [Finset.sum_mul]
        exact sum_congr rfl fun c _ => by ring
      have e2 := hQ i
      unfold kMisfit at e2
      rw [e1, ← e2]
      rw [add_neg_cancel_right, mul_assoc, mul_div_cancel_left₀ _ hi, sub_self]
      norm_num
    · intro c hc
      rw [hxe c (Finset.mem_range.1 hc)]
      norm_num
  · rintro x q' hx hxa ⟨f, hf, rfl⟩
    rw [s1] at hxa
    rw [affine_cost hs hg hn hK (hx.trans hs.xlen) hxa hk hf]
    exact le_add_of_nonneg_right (add_nonneg (Finset.sum_nonneg fun _ _ => sq_nonneg _) (Finset.sum_nonneg fun _ _ => sq_nonneg _))

/-- **C90, contours.** For affine models whose parameters are identified, there is exactly one list of optimal parameters; it is given by the closed form of generalised least squares, and
the least cost with other parameters exceeds the least cost of all by exactly the quadratic form of the inverse of the propagated covariance: the surface where it exceeds it by one is
the one-standard-uncertainty ellipsoid. -/
theorem C90_contours {ms : Evaluable ℝ δ} {labels clabels : List String} {m : Nat} (h : ms.SolverReady labels clabels m) {g : GN ℝ δ} (hg : g.Solves ms)
    (hn : ms.mu.Normalisable) {B : Nat → Nat → Nat → ℝ} {A : Nat → Nat → ℝ} (hK : ms.AffineK g.hd.a.length B A) (hA : Identifies A ms.mu.ks.length g.hd.a.length) :
    ∃ (best : List ℝ) (q : ℝ), best.length = g.hd.a.length ∧ g.Optimal best q ∧ (∀ a' q', g.Optimal a' q' → a' = best ∧ q' = q) ∧
      (∀ a0 k0, a0.length = g.hd.a.length → ms.kOf ms.mu.values a0 = .ok k0 → ∀ j : Fin g.hd.a.length,
        best.getD j 0 = a0.getD j 0 - (glsEstimator ms.mu g.hd.a.length B A *ᵥ kMisfit ms.mu k0) j) ∧
      ∀ a, a.length = g.hd.a.length →
        g.ProfileCost a (q + parDiff g.hd.a.length a best ⬝ᵥ (propagatedCov ms.mu g.hd.a.length B A)⁻¹ *ᵥ parDiff g.hd.a.length a best) := by
  obtain ⟨N, n, hs⟩ := hg.setup h
  obtain ⟨s1, s2, s3⟩ := hs.sizes
  generalize hP : g.hd.a.length = P at *
  have hu := kCovM_unit hs hn B
  obtain ⟨i1, i2, i3⟩ := information_pos hs hn B hA
  have hsi : ((kCovM ms.mu B)⁻¹)ᵀ = (kCovM ms.mu B)⁻¹ := by rw [Matrix.transpose_nonsing_inv, kCovM_symm hs]
  -- K for the measured values
  have hkall : ∀ a : List ℝ, a.length = P → ∃ k, ms.kOf ms.mu.values a = .ok k := by
    intro a ha
    obtain ⟨k, _, e, _⟩ := hK ms.mu.values a ms.mu.values a rfl rfl ha ha
    exact ⟨k, e⟩
  have hlin : ∀ a a' k k' : List ℝ, a.length = P → a'.length = P → ms.kOf ms.mu.values a = .ok k → ms.kOf ms.mu.values a' = .ok k' →
      kMisfit ms.mu k' = kMisfit ms.mu k + kParM ms.mu.ks.length P A *ᵥ parDiff P a' a := by
    intro a a' k k' ha ha' hk hk'
    obtain ⟨k1, k2, e1, e2, e3⟩ := hK ms.mu.values a ms.mu.values a' rfl rfl ha ha'
    rw [hk] at e1; cases e1
    rw [hk'] at e2; cases e2
    funext i
    have e4 := e3 i i.2
    have e5 : ms.mu.pairing (B i) (fun b r => ms.mu.elem ms.mu.values b r - ms.mu.elem ms.mu.values b r) = 0 := by
      unfold MatchUp.pairing
      simp
    rw [e5, zero_add, ← Fin.sum_univ_eq_sum_range (fun j => A i j * (a'.getD j 0 - a.getD j 0))] at e4
    show k'.getD i 0 - ms.mu.ks.getD i 0 = k.getD i 0 - ms.mu.ks.getD i 0 + ∑ j : Fin P, A i j * (a'.getD j 0 - a.getD j 0)
    rw [← e4]
    ring
  have hest : ∀ v, glsEstimator ms.mu P B A *ᵥ (kParM ms.mu.ks.length P A *ᵥ v) = v := by
    intro v
    unfold glsEstimator propagatedCov
    rw [Matrix.mulVec_mulVec, Matrix.mul_assoc, Matrix.mul_assoc, ← Matrix.mul_assoc (kParM ms.mu.ks.length P A)ᵀ, Matrix.nonsing_inv_mul _ i2, Matrix.one_mulVec]
  -- the best parameters
  obtain ⟨z, hz⟩ : ∃ z : List ℝ, z = List.replicate P 0 := ⟨_, rfl⟩
  have hzl : z.length = P := by rw [hz, List.length_replicate]
  obtain ⟨kz, hkz⟩ := hkall z hzl
  obtain ⟨best, hbest⟩ : ∃ b : List ℝ, b = List.ofFn fun j : Fin P => z.getD j 0 - (glsEstimator ms.mu P B A *ᵥ kMisfit ms.mu kz) j := ⟨_, rfl⟩
  have hbl : best.length = P := by rw [hbest, List.length_ofFn]
  have hbe : parDiff P best z = -(glsEstimator ms.mu P B A *ᵥ kMisfit ms.mu kz) := by
    funext j
    show best.getD j 0 - z.getD j 0 = _
    have : best.getD j 0 = z.getD j 0 - (glsEstimator ms.mu P B A *ᵥ kMisfit ms.mu kz) j := by
      rw [hbest]
      simp [List.getD, List.getElem?_ofFn]
    rw [this]
    simp
  obtain ⟨kb, hkb⟩ := hkall best hbl
  have hb0 : glsEstimator ms.mu P B A *ᵥ kMisfit ms.mu kb = 0 := by
    rw [hlin z best kz kb hzl hbl hkz hkb, Matrix.mulVec_add, hest, hbe, add_neg_cancel]
  have hb1 : (kParM ms.mu.ks.length P A)ᵀ *ᵥ ((kCovM ms.mu B)⁻¹ *ᵥ kMisfit ms.mu kb) = 0 := by
    have e := congrArg (fun v => ((kParM ms.mu.ks.length P A)ᵀ * (kCovM ms.mu B)⁻¹ * kParM ms.mu.ks.length P A) *ᵥ v) hb0
    simp only [Matrix.mulVec_zero] at e
    unfold glsEstimator propagatedCov at e
    rwa [Matrix.mulVec_mulVec, ← Matrix.mul_assoc, ← Matrix.mul_assoc, Matrix.mul_nonsing_inv _ i2, Matrix.one_mul, ← Matrix.mulVec_mulVec] at e
  have hV : (propagatedCov ms.mu P B A)⁻¹ = (kParM ms.mu.ks.length P A)ᵀ * (kCovM ms.mu B)⁻¹ * kParM ms.mu.ks.length P A := by
    unfold propagatedCov
    rw [Matrix.nonsing_inv_nonsing_inv _ i2]
  have hprof : ∀ a, a.length = P → g.ProfileCost a (kMisfit ms.mu kb ⬝ᵥ (kCovM ms.mu B)⁻¹ *ᵥ kMisfit ms.mu kb +
      parDiff P a best ⬝ᵥ (propagatedCov ms.mu P B A)⁻¹ *ᵥ parDiff P a best) := by
    intro a ha
    obtain ⟨k, hk⟩ := hkall a ha
    have e := C90_profile h hg hn (by rw [hP]; exact hK) (ha.trans hP.symm) hk
    rw [hlin best a kb k hbl ha hkb hk, Matrix.mulVec_add, dotProduct_add, add_dotProduct, add_dotProduct] at e
    have c1 : (kParM ms.mu.ks.length P A *ᵥ parDiff P a best) ⬝ᵥ (kCovM ms.mu B)⁻¹ *ᵥ kMisfit ms.mu kb = 0 := by
      rw [dotProduct_comm, Matrix.dotProduct_mulVec, ← Matrix.mulVec_transpose, hb1, zero_dotProduct]
    have c2 : kMisfit ms.mu kb ⬝ᵥ (kCovM ms.mu B)⁻¹ *ᵥ (kParM ms.mu.ks.length P A *ᵥ parDiff P a best) = 0 := by
      rw [Matrix.dotProduct_mulVec, ← Matrix.mulVec_transpose, hsi, dotProduct_comm]
      exact c1
    have c3 : (kParM ms.mu.ks.length P A *ᵥ parDiff P a best) ⬝ᵥ (kCovM ms.mu B)⁻¹ *ᵥ (kParM ms.mu.ks.length P A *ᵥ parDiff P a best) =
        parDiff P a best ⬝ᵥ (propagatedCov ms.mu P B A)⁻¹ *ᵥ parDiff P a best := by
      rw [hV, ← Matrix.mulVec_mulVec, ← Matrix.mulVec_mulVec, Matrix.dotProduct_mulVec (parDiff P a best), Matrix.vecMul_transpose]
    rw [c1, c2, c3] at e
    convert e using 1
    ring
  have hpos : ∀ a, 0 ≤ parDiff P a best ⬝ᵥ (propagatedCov ms.mu P B A)⁻¹ *ᵥ parDiff P a best ∧
      (parDiff P a best ⬝ᵥ (propagatedCov ms.mu P B A)⁻¹ *ᵥ parDiff P a best = 0 → parDiff P a best = 0) := by
    intro a
    rw [hV]
    exact i3 _
  have hself : parDiff P best best = 0 := by funext j; exact sub_self _
  have hall : ∀ x q', x.length = g.xyza.length → g.CostAt x q' → kMisfit ms.mu kb ⬝ᵥ (kCovM ms.mu B)⁻¹ *ᵥ kMisfit ms.mu kb +
      parDiff P (x.drop g.hd.mu.values.length) best ⬝ᵥ (propagatedCov ms.mu P B A)⁻¹ *ᵥ parDiff P (x.drop g.hd.mu.values.length) best ≤ q' := by
    intro x q' hx hc
    exact (hprof (x.drop g.hd.mu.values.length) (by rw [List.length_drop, hx, hg.xyza, hP]; omega)).2 x q' hx rfl hc
  have hopt : g.Optimal best (kMisfit ms.mu kb ⬝ᵥ (kCovM ms.mu B)⁻¹ *ᵥ kMisfit ms.mu kb) := by
    obtain ⟨⟨x, x1, x2, f, x3, x4⟩, _⟩ := hprof best hbl
    rw [hself, zero_dotProduct, add_zero] at x4
    refine ⟨x, f, x1, x2, x3, x4, ?_⟩
    intro x' f' hx' hf'
    have := hall x' _ hx' ⟨f', hf', rfl⟩
    have := (hpos (x'.drop g.hd.mu.values.length)).1
    linarith
  refine ⟨best, _, hbl, hopt, ?_, ?_, hprof⟩
  · rintro a' q' ⟨x, f, x1, x2, x3, x4, x5⟩
    obtain ⟨y, f2, y1, y2, y3, y4, y5⟩ := hopt
    have c1 := x5 y f2 y1 y3
    have c2 := hall x q' x1 ⟨f, x3, x4⟩
    have c3 := (hpos (x.drop g.hd.mu.values.length)).1
    rw [← y4] at c1
    have c4 := (hpos (x.drop g.hd.mu.values.length)).2 (by linarith)
    rw [x2] at c4
    refine ⟨?_, by linarith⟩
    have hl' : a'.length = P := by rw [← x2, List.length_drop, x1, hg.xyza, hP]; omega
    refine List.ext_getElem (hl'.trans hbl.symm) fun j j1 j2 => ?_
    have c5 : a'.getD j 0 - best.getD j 0 = 0 := congrFun c4 ⟨j, by omega⟩
    have c6 : a'[j] = a'.getD j 0 := by simp [List.getD, j1]
    have c7 : best[j] = best.getD j 0 := by simp [List.getD, j2]
    rw [c6, c7]
    linarith
  · intro a0 k0 ha0 hk0 j
    have e := hlin a0 best k0 kb ha0 hbl hk0 hkb
    have e2 := congrArg (fun v => glsEstimator ms.mu P B A *ᵥ v) e
    simp only [Matrix.mulVec_add, hest, hb0] at e2
    have e3 : 0 = (glsEstimator ms.mu P B A *ᵥ kMisfit ms.mu k0) j + (best.getD j 0 - a0.getD j 0) := congrFun e2 j
    linarith

/-- Cauchy-Schwarz for a positive matrix and its inverse. -/
theorem inverse_bound {P : Nat} {M : Matrix (Fin P) (Fin P) ℝ} (hs : Mᵀ = M) (hu : IsUnit M.det) (hp : ∀ y, 0 ≤ y ⬝ᵥ M *ᵥ y) (c d : Fin P → ℝ) :
    (c ⬝ᵥ d) ^ 2 ≤ (c ⬝ᵥ M⁻¹ *ᵥ c) * (d ⬝ᵥ M *ᵥ d) := by
  have e1 : M *ᵥ (M⁻¹ *ᵥ c) = c := by rw [Matrix.mulVec_mulVec, Matrix.mul_nonsing_inv _ hu, Matrix.one_mulVec]
  have e2 : ∀ v, v ⬝ᵥ M *ᵥ (M⁻¹ *ᵥ c) = c ⬝ᵥ v := fun v => by rw [e1, dotProduct_comm]
  have e3 : (M⁻¹ *ᵥ c) ⬝ᵥ M *ᵥ d = c ⬝ᵥ d := by
    rw [Matrix.dotProduct_mulVec, ← Matrix.mulVec_transpose, hs, e1]
  have key : ∀ t : ℝ, 0 ≤ (c ⬝ᵥ M⁻¹ *ᵥ c) * (t * t) + (2 * (c ⬝ᵥ d)) * t + d ⬝ᵥ M *ᵥ d := by
    intro t
    have := hp (d + t • (M⁻¹ *ᵥ c))
    rw [Matrix.mulVec_add, Matrix.mulVec_smul, dotProduct_add, add_dotProduct, add_dotProduct, dotProduct_smul, dotProduct_smul, smul_dotProduct, smul_dotProduct, e2, e2, e3] at this
    simp only [smul_eq_mul] at this
    linarith
  have := discrim_le_zero key
  unfold discrim at this
  nlinarith

/-- **C90, how far from the optimum.** For affine models: if the cost of an estimate exceeds the least cost by `ε`, then no combination of its parameters differs from that of the optimal
ones by more than `√ε` propagated standard uncertainties. -/
theorem C90_excess {ms : Evaluable ℝ δ} {labels clabels : List String} {m : Nat} (h : ms.SolverReady labels clabels m) {g : GN ℝ δ} (hg : g.Solves ms)
    (hn : ms.mu.Normalisable) {B : Nat → Nat → Nat → ℝ} {A : Nat → Nat → ℝ} (hK : ms.AffineK g.hd.a.length B A) (hA : Identifies A ms.mu.ks.length g.hd.a.length)
    {best : List ℝ} {qbest : ℝ} (hbest : g.Optimal best qbest) {x : List ℝ} (hx : x.length = g.xyza.length) {q : ℝ} (hq : g.CostAt x q) (c : Fin g.hd.a.length → ℝ) :
    (c ⬝ᵥ parDiff g.hd.a.length (x.drop g.hd.mu.values.length) best) ^ 2 ≤ (c ⬝ᵥ propagatedCov ms.mu g.hd.a.length B A *ᵥ c) * (q - qbest) := by
  obtain ⟨N, n, hs⟩ := hg.setup h
  obtain ⟨b, qb, h1, h2, h3, _, h5⟩ := C90_contours h hg hn hK hA
  obtain ⟨rfl, rfl⟩ := h3 _ _ hbest
  obtain ⟨i1, i2, i3⟩ := information_pos hs hn B hA
  have hp := (h5 (x.drop g.hd.mu.values.length) (by rw [List.length_drop, hx, hg.xyza]; omega)).2 x q hx rfl hq
  have hV : (propagatedCov ms.mu g.hd.a.length B A)⁻¹ = (kParM ms.mu.ks.length g.hd.a.length A)ᵀ * (kCovM ms.mu B)⁻¹ * kParM ms.mu.ks.length g.hd.a.length A := by
    unfold propagatedCov
    rw [Matrix.nonsing_inv_nonsing_inv _ i2]
  have hb := inverse_bound i1 i2 (fun y => (i3 y).1) c (parDiff g.hd.a.length (x.drop g.hd.mu.values.length) best)
  have hc := inverse_bound i1 i2 (fun y => (i3 y).1) c c
  rw [hV] at hp
  have hc0 : 0 ≤ c ⬝ᵥ propagatedCov ms.mu g.hd.a.length B A *ᵥ c := by
    have e := (i3 (propagatedCov ms.mu g.hd.a.length B A *ᵥ c)).1
    unfold propagatedCov at e ⊢
    rwa [Matrix.mulVec_mulVec, Matrix.mul_nonsing_inv _ i2, Matrix.one_mulVec, dotProduct_comm] at e
  refine hb.trans (mul_le_mul_of_nonneg_left ?_ hc0)
  linarith

/-- **C90, runs.** So it is for the parameters and the cost which a run returns. -/
theorem C90_run {ms : Evaluable ℝ δ} {labels clabels : List String} {m : Nat} (h : ms.SolverReady labels clabels m) {g : GN ℝ δ} (hg : g.Solves ms)
    (hn : ms.mu.Normalisable) {B : Nat → Nat → Nat → ℝ} {A : Nat → Nat → ℝ} (hK : ms.AffineK g.hd.a.length B A) (hA : Identifies A ms.mu.ks.length g.hd.a.length)
    {o : LsmrOpts ℝ} (hh : 0 < o.huge) {sqrt : ℝ → Py ℝ} (hs : IsSqrt sqrt) {tol : GNTol ℝ} {minres : GN ℝ δ → List ℝ → Py (List ℝ)} {rc : Bool} {res : GNResult ℝ}
    (hrun : g.run (GN.lsmrObject o sqrt) minres tol rc = .ok res) :
    ∃ (best : List ℝ) (q : ℝ), g.Optimal best q ∧ q ≤ res.cost ∧ res.a.length = best.length ∧
      ∀ c : Fin g.hd.a.length → ℝ, (c ⬝ᵥ parDiff g.hd.a.length res.a best) ^ 2 ≤ (c ⬝ᵥ propagatedCov ms.mu g.hd.a.length B A *ᵥ c) * (res.cost - q) := by
  obtain ⟨xs, h1, h2, h3, h4, _⟩ := C87_run h hg hh hs hrun
  have hx : res.state.xyza.length = g.xyza.length := h4 _ (List.mem_of_getLast? h3)
  obtain ⟨N_var, f, c1, _, _, _, _, _, _, _, c2, c3, c4⟩ := C32_loop hrun
  obtain ⟨N, n, hset⟩ := hg.setup h
  have hv : N_var = g.hd.mu.values.length := by
    have hv := hset.var_eq
    rw [← hset.sizes.1] at hv
    unfold pyLast at hv
    rw [pyGet_ok] at hv
    rw [List.getLast?_eq_getElem?, hv] at c1
    cases c1
    omega
  obtain ⟨best, q, b1, b2, _⟩ := C90_contours h hg hn hK hA
  refine ⟨best, q, b2, ?_, ?_, ?_⟩
  · obtain ⟨x, f', _, _, _, e, b3⟩ := b2
    rw [c4]
    exact b3 _ f hx c3
  · rw [c2, hv, List.length_drop, hx, hg.xyza, b1]; omega
  · intro c
    rw [c2, hv]
    exact C90_excess h hg hn hK hA b2 hx ⟨f, c3, c4⟩ c

end Verif
