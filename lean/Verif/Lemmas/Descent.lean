import Verif.Lemmas.CR
import Verif.Spec.GNKrylov
/-
The vector of the Krylov space of the normal equations with the smallest gradient is a descent direction, and makes the residual smaller.
-/
set_option autoImplicit false
namespace Verif
open Matrix
variable {α : Type} [Field α] [LinearOrder α] [IsStrictOrderedRing α] {m n : Nat}

theorem gram_dot (A : Matrix (Fin m) (Fin n) α) (u v : Fin n → α) : u ⬝ᵥ ((Aᵀ * A) *ᵥ v) = (A *ᵥ u) ⬝ᵥ (A *ᵥ v) := by
  rw [← mulVec_mulVec, dotProduct_mulVec, vecMul_transpose]

/-- The best vector of a Krylov space of the normal equations is not a worse solution of the least-squares problem than zero. -/
theorem best_gradient_dot {A : Matrix (Fin m) (Fin n) α} {c x : Fin n → α} {b : Fin m → α} (hc : c = Aᵀ *ᵥ b) {k : Nat} (hx : x ∈ krylov (Aᵀ * A) c k)
    (hbest : ∀ y ∈ krylov (Aᵀ * A) c k, normSq (c - (Aᵀ * A) *ᵥ x) ≤ normSq (c - (Aᵀ * A) *ᵥ y)) : (A *ᵥ x) ⬝ᵥ (A *ᵥ x) ≤ x ⬝ᵥ c := by
  have hM : (Aᵀ * A).IsSymm := by
    unfold Matrix.IsSymm
    rw [transpose_mul, transpose_transpose]
  have h := best_dot_residual_on hM (S := LinearMap.range Aᵀ.mulVecLin) ?_ ?_ ?_ hx hbest
  · rw [dotProduct_sub, gram_dot] at h
    linarith
  · rintro _ ⟨w, rfl⟩ hne
    rw [mulVecLin_apply] at hne ⊢
    rw [gram_dot]
    rcases (normSq_nonneg (A *ᵥ (Aᵀ *ᵥ w))).lt_or_eq with h' | h'
    · exact h'
    · have h0 := normSq_zero h'.symm
      exfalso
      apply hne
      apply normSq_zero
      have : (Aᵀ *ᵥ w) ⬝ᵥ (Aᵀ *ᵥ w) = (A *ᵥ (Aᵀ *ᵥ w)) ⬝ᵥ w := by
        rw [dotProduct_mulVec, vecMul_transpose]
      rw [this, h0, zero_dotProduct]
  · intro v
    exact ⟨A *ᵥ v, by rw [mulVecLin_apply, mulVec_mulVec]⟩
  · exact ⟨b, by rw [mulVecLin_apply, hc]⟩

/-- If the gradient is not zero, it is a strictly better one. -/
theorem best_gradient_pos {A : Matrix (Fin m) (Fin n) α} {c x : Fin n → α} {b : Fin m → α} (hc : c = Aᵀ *ᵥ b) (hne : c ≠ 0) {k : Nat} (hk : 1 ≤ k)
    (hbest : ∀ y ∈ krylov (Aᵀ * A) c k, normSq (c - (Aᵀ * A) *ᵥ x) ≤ normSq (c - (Aᵀ * A) *ᵥ y)) : 0 < (A *ᵥ x) ⬝ᵥ (A *ᵥ x) := by
  rcases (normSq_nonneg (A *ᵥ x)).lt_or_eq with h' | h'
  · exact h'
  exfalso
  have h0 := normSq_zero h'.symm
  have hx0 : (Aᵀ * A) *ᵥ x = 0 := by rw [← mulVec_mulVec, h0, mulVec_zero]
  -- A c is not zero
  have hAc : 0 < (A *ᵥ c) ⬝ᵥ (A *ᵥ c) := by
    rcases (normSq_nonneg (A *ᵥ c)).lt_or_eq with h | h
    · exact h
    · exfalso
      have h1 := normSq_zero h.symm
      apply hne
      apply normSq_zero
      have : c ⬝ᵥ c = (A *ᵥ c) ⬝ᵥ b := by
        conv_lhs => rhs; rw [hc]
        rw [dotProduct_mulVec, vecMul_transpose]
      rw [this, h1, zero_dotProduct]
  obtain ⟨M, hM⟩ : ∃ M, M = Aᵀ * A := ⟨_, rfl⟩
  have e1 : c ⬝ᵥ (M *ᵥ c) = (A *ᵥ c) ⬝ᵥ (A *ᵥ c) := by rw [hM]; exact gram_dot A c c
  have hq : 0 < (M *ᵥ c) ⬝ᵥ (M *ᵥ c) := by
    rcases (normSq_nonneg (M *ᵥ c)).lt_or_eq with h | h
    · exact h
    · have h1 := normSq_zero h.symm
      rw [h1, dotProduct_zero] at e1
      exact absurd e1 hAc.ne
  have hb := hbest (((c ⬝ᵥ (M *ᵥ c)) / ((M *ᵥ c) ⬝ᵥ (M *ᵥ c))) • c) (Submodule.smul_mem _ _ (krylov_b hk))
  rw [hx0, sub_zero, ← hM, mulVec_smul, normSq_eq, normSq_eq, sub_dotProduct, dotProduct_sub, dotProduct_sub, smul_dotProduct, smul_dotProduct, dotProduct_smul, dotProduct_smul,
    dotProduct_comm (M *ᵥ c) c, e1] at hb
  simp only [smul_eq_mul] at hb
  obtain ⟨p, hp⟩ : ∃ p, p = (A *ᵥ c) ⬝ᵥ (A *ᵥ c) := ⟨_, rfl⟩
  obtain ⟨q, hqd⟩ : ∃ q, q = (M *ᵥ c) ⬝ᵥ (M *ᵥ c) := ⟨_, rfl⟩
  rw [← hp] at hb hAc
  rw [← hqd] at hb hq
  have e2 : p / q * (p / q * q) = p / q * p := by
    have := hq.ne'
    field_simp
  have e3 : 0 < p / q * p := by positivity
  rw [e2] at hb
  linarith

/-- The best step goes downhill. -/
theorem BestStep.descends {J : Matrix (Fin m) (Fin n) α} {f : Fin m → α} {z : Fin n → α} (h : BestStep J f z) (hne : Jᵀ *ᵥ f ≠ 0) :
    f ⬝ᵥ (J *ᵥ z) < 0 ∧ normSq (f + J *ᵥ z) < normSq f := by
  obtain ⟨k, _, hk, hz, hbest⟩ := h
  have hc : -(Jᵀ *ᵥ f) = Jᵀ *ᵥ (-f) := by rw [mulVec_neg]
  have hkry : krylov (Jᵀ * J) (-(Jᵀ *ᵥ f)) k = krylov (Jᵀ * J) (Jᵀ *ᵥ f) k := by
    apply le_antisymm
    · unfold krylov
      rw [Submodule.span_le]
      rintro v ⟨j, hj, rfl⟩
      rw [mulVec_neg]
      exact Submodule.neg_mem _ (Submodule.subset_span ⟨j, hj, rfl⟩)
    · unfold krylov
      rw [Submodule.span_le]
      rintro v ⟨j, hj, rfl⟩
      have : (Jᵀ * J) ^ j *ᵥ (Jᵀ *ᵥ f) = -((Jᵀ * J) ^ j *ᵥ (-(Jᵀ *ᵥ f))) := by rw [mulVec_neg, neg_neg]
      rw [this]
      exact Submodule.neg_mem _ (Submodule.subset_span ⟨j, hj, rfl⟩)
  have hbest' : ∀ y ∈ krylov (Jᵀ * J) (-(Jᵀ *ᵥ f)) k, normSq (-(Jᵀ *ᵥ f) - (Jᵀ * J) *ᵥ z) ≤ normSq (-(Jᵀ *ᵥ f) - (Jᵀ * J) *ᵥ y) := by
    intro y hy
    rw [hkry] at hy
    have := hbest y hy
    have e : ∀ w, normSq (-(Jᵀ *ᵥ f) - (Jᵀ * J) *ᵥ w) = normSq (Jᵀ *ᵥ (f + J *ᵥ w)) := by
      intro w
      have : -(Jᵀ *ᵥ f) - (Jᵀ * J) *ᵥ w = -(Jᵀ *ᵥ (f + J *ᵥ w)) := by
        rw [mulVec_add, mulVec_mulVec]
        abel
      rw [this]
      simp [normSq]
    rw [e, e]
    exact this
  have h1 := best_gradient_dot hc (by rw [hkry]; exact hz) hbest'
  have h2 := best_gradient_pos hc (neg_ne_zero.2 hne) hk hbest'
  have e : z ⬝ᵥ -(Jᵀ *ᵥ f) = -(f ⬝ᵥ (J *ᵥ z)) := by
    rw [dotProduct_neg, dotProduct_mulVec, vecMul_transpose, dotProduct_comm]
  rw [e] at h1
  refine ⟨by linarith, ?_⟩
  rw [normSq_eq, normSq_eq, add_dotProduct, dotProduct_add, dotProduct_add, dotProduct_comm (J *ᵥ z) f]
  linarith

end Verif
