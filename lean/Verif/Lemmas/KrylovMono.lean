import Verif.Lemmas.CR
/-
The best vectors of growing Krylov spaces: besides the residual, the error in the norm of the matrix never grows, and the inner product with the right-hand side never falls.
-/
set_option autoImplicit false
namespace Verif
open Matrix
variable {α : Type} [Field α] [LinearOrder α] [IsStrictOrderedRing α] {n : Nat}

/-- `x` is a vector of the Krylov space of dimension `k` with the smallest residual. -/
def BestIn (M : Matrix (Fin n) (Fin n) α) (b : Fin n → α) (k : Nat) (x : Fin n → α) : Prop :=
  x ∈ krylov M b k ∧ ∀ y ∈ krylov M b k, normSq (b - M *ᵥ x) ≤ normSq (b - M *ᵥ y)

/-- The best vector is the one of the conjugate residual method. -/
theorem CRInv.unique {M : Matrix (Fin n) (Fin n) α} {S : Submodule α (Fin n → α)} (hpos : ∀ v ∈ S, v ≠ 0 → 0 < v ⬝ᵥ (M *ᵥ v)) (hS : ∀ v, M *ᵥ v ∈ S)
    {b : Fin n → α} (hb : b ∈ S) {k : Nat} {x y p : Fin n → α} {s c g : α} {t u : Fin n → α} (h : CRInv M b k y p s c g t u) (hx : BestIn M b k x) : x = y := by
  have hmem : y - x ∈ krylov M b k := Submodule.sub_mem _ h.x_mem hx.1
  have h1 := h.orth _ hmem
  have h2 := hx.2 y h.x_mem
  have h3 : b - M *ᵥ x = (b - M *ᵥ y) + M *ᵥ (y - x) := by rw [mulVec_sub]; module
  rw [h3, normSq_eq, normSq_eq, add_dotProduct, dotProduct_add, dotProduct_add, dotProduct_comm (M *ᵥ (y - x)) (b - M *ᵥ y), h1] at h2
  have h4 : (M *ᵥ (y - x)) ⬝ᵥ (M *ᵥ (y - x)) = 0 := le_antisymm (by linarith) (normSq_nonneg _)
  by_contra hne
  have h5 : y - x ≠ 0 := fun h => hne (sub_eq_zero.1 h).symm
  have := hpos _ (krylov_le hS hb k hmem) h5
  rw [normSq_zero h4] at this
  simp at this

/-- Larger inner product with the right-hand side, smaller error. -/
def Improves (M : Matrix (Fin n) (Fin n) α) (b x y : Fin n → α) : Prop :=
  b ⬝ᵥ x ≤ b ⬝ᵥ y ∧ x ⬝ᵥ (b + (b - M *ᵥ x)) ≤ y ⬝ᵥ (b + (b - M *ᵥ y))

/-- The best vector of a larger Krylov space is at least as good. -/
theorem best_improves {M : Matrix (Fin n) (Fin n) α} (hM : M.IsSymm) {S : Submodule α (Fin n → α)} (hpos : ∀ v ∈ S, v ≠ 0 → 0 < v ⬝ᵥ (M *ᵥ v)) (hS : ∀ v, M *ᵥ v ∈ S)
    {b : Fin n → α} (hb : b ∈ S) {k l : Nat} (hkl : k ≤ l) {x y : Fin n → α} (hx : BestIn M b k x) (hy : BestIn M b l y) : Improves M b x y := by
  have hnn : ∀ v ∈ S, 0 ≤ v ⬝ᵥ (M *ᵥ v) := by
    intro v hv
    by_cases h0 : v = 0
    · rw [h0]; simp
    · exact (hpos v hv h0).le
  have key : ∀ l, (∃ y ∈ krylov M b l, b - M *ᵥ y = 0) ∨ ∃ x p s c g t u, CRInv M b l x p s c g t u ∧ 0 ≤ p ⬝ᵥ (M *ᵥ x) ∧ p ∈ S ∧ x ∈ S ∧
      ∀ k, k ≤ l → ∀ x', BestIn M b k x' → Improves M b x' x := by
    intro l
    induction l with
    | zero =>
      refine .inr ⟨_, _, _, _, _, _, _, CRInv.start M b, by simp, hb, S.zero_mem, ?_⟩
      intro k hk x' hx'
      have : k = 0 := by omega
      subst this
      rw [(CRInv.start M b).unique hpos hS hb hx']
      exact ⟨le_rfl, le_rfl⟩
    | succ l ih =>
      rcases ih with ⟨y, hy, h0⟩ | ⟨x, p, s, c, g, t, u, h, hpx, hpS, hxS, hi⟩
      · exact .inl ⟨y, krylov_mono (Nat.le_succ l) hy, h0⟩
      · by_cases hr : b - M *ᵥ x = 0
        · exact .inl ⟨x, krylov_mono (Nat.le_succ l) h.x_mem, hr⟩
        · obtain ⟨a, β, s', c', g', t', u', ha, hβ, h'⟩ := h.step hM hpos hS hb hr
          have hmu : M *ᵥ u ∈ krylov M b (l + 1) := krylov_succ_mem h.u_mem
          have hp1 : p ∈ krylov M b (l + 1) := by
            rw [h.p_eq]
            exact Submodule.add_mem _ (Submodule.smul_mem _ _ (krylov_b (by omega))) hmu
          obtain ⟨r, hrd⟩ : ∃ r, r = b - M *ᵥ x := ⟨_, rfl⟩
          obtain ⟨r', hrd'⟩ : ∃ r', r' = b - M *ᵥ (x + a • p) := ⟨_, rfl⟩
          have ho' : ∀ y ∈ krylov M b (l + 1), r' ⬝ᵥ (M *ᵥ y) = 0 := by rw [hrd']; exact h'.orth
          have ho : ∀ y ∈ krylov M b l, r ⬝ᵥ (M *ᵥ y) = 0 := by rw [hrd]; exact h.orth
          -- p with both residuals
          have q1 : p ⬝ᵥ r = c * normSq r := by
            have e : b = r + M *ᵥ x := by rw [hrd]; module
            conv_lhs => lhs; rw [h.p_eq, e]
            rw [add_dotProduct, smul_dotProduct, add_dotProduct, dotProduct_comm (M *ᵥ x), ho _ h.x_mem, dotProduct_comm (M *ᵥ u), ho _ h.u_mem, add_zero, add_zero]
            rfl
          have q2 : p ⬝ᵥ r' = c * normSq r' := by
            have e : b = r' + M *ᵥ (x + a • p) := by rw [hrd']; module
            conv_lhs => lhs; rw [h.p_eq, e]
            rw [add_dotProduct, smul_dotProduct, add_dotProduct, dotProduct_comm (M *ᵥ (x + a • p)), ho' _ h'.x_mem, dotProduct_comm (M *ᵥ u),
              ho' _ (krylov_mono (Nat.le_succ l) h.u_mem), add_zero, add_zero]
            rfl
          have hc := h.c_pos
          have n1 := normSq_nonneg r
          have n2 := normSq_nonneg r'
          have p1 : 0 ≤ p ⬝ᵥ r := by rw [q1]; positivity
          have p2 : 0 ≤ p ⬝ᵥ r' := by rw [q2]; positivity
          have p3 : 0 ≤ b ⬝ᵥ p := by
            have e : b = r + M *ᵥ x := by rw [hrd]; module
            rw [e, add_dotProduct, dotProduct_comm r, dotProduct_comm (M *ᵥ x)]
            linarith
          have step : Improves M b x (x + a • p) := by
            refine ⟨?_, ?_⟩
            · rw [dotProduct_add, dotProduct_smul, smul_eq_mul]
              have := mul_nonneg ha p3
              linarith
            · -- the difference is the step times the sum of the residuals
              have e : (x + a • p) ⬝ᵥ (b + (b - M *ᵥ (x + a • p))) = x ⬝ᵥ (b + (b - M *ᵥ x)) + a * (p ⬝ᵥ r + p ⬝ᵥ r') := by
                have e1 : p ⬝ᵥ (M *ᵥ x) = x ⬝ᵥ (M *ᵥ p) := by rw [symm_dot hM, dotProduct_comm]
                rw [hrd, hrd']
                simp only [mulVec_add, mulVec_smul, add_dotProduct, dotProduct_add, dotProduct_sub, smul_dotProduct, dotProduct_smul, smul_eq_mul, e1]
                ring
              rw [e]
              have := mul_nonneg ha (add_nonneg p1 p2)
              linarith
          have hrS' : b - M *ᵥ (x + a • p) ∈ S := S.sub_mem hb (hS _)
          refine .inr ⟨_, _, _, _, _, _, _, h', ?_, S.add_mem hrS' (S.smul_mem _ hpS), S.add_mem hxS (S.smul_mem _ hpS), ?_⟩
          · rw [← hrd', add_dotProduct, ho' _ h'.x_mem, smul_dotProduct, mulVec_add, mulVec_smul, dotProduct_add, dotProduct_smul, smul_eq_mul, smul_eq_mul, zero_add]
            have := mul_nonneg ha (hnn p hpS)
            exact mul_nonneg hβ (by linarith)
          · intro k hk x' hx'
            rcases Nat.lt_or_ge k (l + 1) with h1 | h1
            · obtain ⟨i1, i2⟩ := hi k (by omega) x' hx'
              exact ⟨i1.trans step.1, i2.trans step.2⟩
            · have : k = l + 1 := by omega
              subst this
              rw [h'.unique hpos hS hb hx']
              exact ⟨le_rfl, le_rfl⟩
  rcases key l with ⟨z, hz, h0⟩ | ⟨z, p, s, c, g, t, u, h, _, _, _, hi⟩
  · have h1 := hy.2 z hz
    rw [h0] at h1
    have h2 : normSq (b - M *ᵥ y) = 0 := le_antisymm (h1.trans (by simp [normSq])) (normSq_nonneg _)
    have h3 := normSq_zero h2
    have hMy : M *ᵥ y = b := (sub_eq_zero.1 h3).symm
    have hd := hnn (y - x) (S.sub_mem (krylov_le hS hb l hy.1) (krylov_le hS hb k hx.1))
    have hr := best_dot_residual_on hM hpos hS hb hx.1 hx.2
    have e1 : (y - x) ⬝ᵥ (M *ᵥ (y - x)) = b ⬝ᵥ y - x ⬝ᵥ b - x ⬝ᵥ (b - M *ᵥ x) := by
      have e2 : y ⬝ᵥ (M *ᵥ x) = x ⬝ᵥ b := by rw [symm_dot hM, hMy, dotProduct_comm]
      rw [mulVec_sub, sub_dotProduct, dotProduct_sub, dotProduct_sub, hMy, e2, dotProduct_sub, dotProduct_comm y b]
    rw [e1] at hd
    refine ⟨?_, ?_⟩
    · rw [dotProduct_comm b x]; linarith
    · rw [h3, add_zero, dotProduct_comm y b, dotProduct_add]; linarith
  · rw [h.unique hpos hS hb hy]
    exact hi k hkl x hx

end Verif
