import Verif.Lemmas.Minres
import Mathlib.Tactic.Module
import Mathlib.Tactic.Positivity
/-
The vector of the Krylov space with the smallest residual, for a positive semi-definite matrix: its inner product with its residual is not negative.
The proof constructs it with the recurrences of the conjugate residual method.
-/
set_option autoImplicit false
namespace Verif
open Matrix
variable {α : Type} [Field α] [LinearOrder α] [IsStrictOrderedRing α] {n : Nat}

theorem krylov_succ {M : Matrix (Fin n) (Fin n) α} {b : Fin n → α} {k : Nat} {v : Fin n → α} (h : v ∈ krylov M b (k + 1)) :
    ∃ (c : α) (u : Fin n → α), u ∈ krylov M b k ∧ v = c • ((M ^ k) *ᵥ b) + u := by
  induction h using Submodule.span_induction with
  | mem x hx =>
    obtain ⟨j, hj, rfl⟩ := hx
    rcases Nat.lt_succ_iff_lt_or_eq.1 hj with hj | rfl
    · exact ⟨0, _, Submodule.subset_span ⟨j, hj, rfl⟩, by simp⟩
    · exact ⟨1, 0, Submodule.zero_mem _, by simp⟩
  | zero => exact ⟨0, 0, Submodule.zero_mem _, by simp⟩
  | add x y _ _ hx hy =>
    obtain ⟨c, u, hu, rfl⟩ := hx
    obtain ⟨d, w, hw, rfl⟩ := hy
    exact ⟨c + d, u + w, Submodule.add_mem _ hu hw, by module⟩
  | smul a x _ hx =>
    obtain ⟨c, u, hu, rfl⟩ := hx
    exact ⟨a * c, a • u, Submodule.smul_mem _ _ hu, by module⟩

/-- A turn of the conjugate residual method: `x` is the best vector of the space of dimension `k`, `p` the next direction. -/
structure CRInv (M : Matrix (Fin n) (Fin n) α) (b : Fin n → α) (k : Nat) (x p : Fin n → α) (s c g : α) (t u : Fin n → α) : Prop where
  x_mem : x ∈ krylov M b k
  orth : ∀ y ∈ krylov M b k, (b - M *ᵥ x) ⬝ᵥ (M *ᵥ y) = 0
  x_eq : x = s • b + M *ᵥ t
  t_mem : t ∈ krylov M b (k - 1)
  s_nonneg : 0 ≤ s
  s_zero : k = 0 → s = 0
  p_eq : p = c • b + M *ᵥ u
  u_mem : u ∈ krylov M b k
  c_pos : 0 < c
  p_orth : ∀ y ∈ krylov M b k, (M *ᵥ p) ⬝ᵥ (M *ᵥ y) = 0
  p_r : p - (b - M *ᵥ x) ∈ krylov M b k
  lead : p - g • ((M ^ k) *ᵥ b) ∈ krylov M b k
  g_ne : g ≠ 0

theorem krylov_b {M : Matrix (Fin n) (Fin n) α} {b : Fin n → α} {k : Nat} (h : 1 ≤ k) : b ∈ krylov M b k :=
  Submodule.subset_span ⟨0, by omega, by simp⟩

theorem CRInv.start (M : Matrix (Fin n) (Fin n) α) (b : Fin n → α) : CRInv M b 0 0 b 0 1 1 0 0 := by
  have h0 : ∀ y ∈ krylov M b 0, y = 0 := by
    intro y hy
    have : krylov M b 0 = ⊥ := by
      unfold krylov
      rw [Submodule.span_eq_bot]
      rintro x ⟨j, hj, _⟩
      omega
    rw [this] at hy
    exact (Submodule.mem_bot α).1 hy
  refine ⟨Submodule.zero_mem _, ?_, by simp, Submodule.zero_mem _, le_rfl, fun _ => rfl, by simp, Submodule.zero_mem _, zero_lt_one, ?_, by simp, by simp, one_ne_zero⟩
  · intro y hy; rw [h0 y hy]; simp
  · intro y hy; rw [h0 y hy]; simp

/-- Either a solution has been found, or the method can go on. -/
theorem CRInv.step {M : Matrix (Fin n) (Fin n) α} (hM : M.IsSymm) {S : Submodule α (Fin n → α)} (hpos : ∀ v ∈ S, v ≠ 0 → 0 < v ⬝ᵥ (M *ᵥ v)) (hS : ∀ v, M *ᵥ v ∈ S)
    {b : Fin n → α} (hb : b ∈ S) {k : Nat} {x p : Fin n → α} {s c g : α}
    {t u : Fin n → α} (h : CRInv M b k x p s c g t u) (hr : b - M *ᵥ x ≠ 0) :
    ∃ (a β s' c' g' : α) (t' u' : Fin n → α), 0 ≤ a ∧ 0 ≤ β ∧ CRInv M b (k + 1) (x + a • p) (b - M *ᵥ (x + a • p) + β • p) s' c' g' t' u' := by
  obtain ⟨r, hrd⟩ : ∃ r, r = b - M *ᵥ x := ⟨_, rfl⟩
  have hr0 : r ≠ 0 := by rw [hrd]; exact hr
  have horth : ∀ y ∈ krylov M b k, r ⬝ᵥ (M *ᵥ y) = 0 := by rw [hrd]; exact h.orth
  have hpr : p - r ∈ krylov M b k := by rw [hrd]; exact h.p_r
  have hrS : r ∈ S := by rw [hrd]; exact S.sub_mem hb (hS _)
  have hrr := hpos r hrS hr0
  -- r · M p = r · M r
  have e1 : r ⬝ᵥ (M *ᵥ p) = r ⬝ᵥ (M *ᵥ r) := by
    have := horth _ hpr
    rw [mulVec_sub, dotProduct_sub] at this
    exact sub_eq_zero.1 this
  have hMp : M *ᵥ p ≠ 0 := by
    intro hz
    rw [hz] at e1
    simp at e1
    exact hrr.ne e1
  have hq : 0 < (M *ᵥ p) ⬝ᵥ (M *ᵥ p) := by
    rcases (normSq_nonneg (M *ᵥ p)).lt_or_eq with h' | h'
    · exact h'
    · exact absurd (normSq_zero h'.symm) hMp
  obtain ⟨q, hqd⟩ : ∃ q, q = (M *ᵥ p) ⬝ᵥ (M *ᵥ p) := ⟨_, rfl⟩
  obtain ⟨ρ, hρ⟩ : ∃ ρ, ρ = r ⬝ᵥ (M *ᵥ r) := ⟨_, rfl⟩
  rw [← hqd] at hq
  rw [← hρ] at hrr e1
  obtain ⟨a, ha⟩ : ∃ a, a = ρ / q := ⟨_, rfl⟩
  have hapos : 0 < a := by rw [ha]; positivity
  have haq : a * q = ρ := by rw [ha]; field_simp
  obtain ⟨r', hr'⟩ : ∃ r', r' = r - a • (M *ᵥ p) := ⟨_, rfl⟩
  have hx' : b - M *ᵥ (x + a • p) = r' := by rw [hr', hrd, mulVec_add, mulVec_smul]; module
  have hmono := krylov_mono (M := M) (b := b) (Nat.le_succ k)
  have hp_mem : p ∈ krylov M b (k + 1) := by
    rw [h.p_eq]
    exact Submodule.add_mem _ (Submodule.smul_mem _ _ (krylov_b (by omega))) (krylov_succ_mem h.u_mem)
  have hx'_mem : x + a • p ∈ krylov M b (k + 1) := Submodule.add_mem _ (hmono h.x_mem) (Submodule.smul_mem _ _ hp_mem)
  have hsplit : ∀ y ∈ krylov M b (k + 1), ∃ (d : α) (w : Fin n → α), w ∈ krylov M b k ∧ y = d • p + w := by
    intro y hy
    obtain ⟨d, w, hw, rfl⟩ := krylov_succ hy
    refine ⟨d / g, w - (d / g) • (p - g • ((M ^ k) *ᵥ b)), Submodule.sub_mem _ hw (Submodule.smul_mem _ _ h.lead), ?_⟩
    have hg := h.g_ne
    rw [smul_sub, smul_smul, div_mul_cancel₀ d hg]
    module
  have horth' : ∀ y ∈ krylov M b (k + 1), r' ⬝ᵥ (M *ᵥ y) = 0 := by
    intro y hy
    obtain ⟨d, w, hw, rfl⟩ := hsplit y hy
    rw [hr', mulVec_add, mulVec_smul, dotProduct_add, dotProduct_smul, sub_dotProduct, sub_dotProduct, smul_dotProduct, smul_dotProduct, horth w hw, h.p_orth w hw, e1, ← hqd,
      smul_eq_mul, smul_eq_mul, haq]
    simp
  have hr_mem : r ∈ krylov M b (k + 1) := by
    have := Submodule.sub_mem _ hp_mem (hmono hpr)
    simpa using this
  have hr'_mem2 : ∀ y ∈ krylov M b k, (M *ᵥ r') ⬝ᵥ (M *ᵥ y) = 0 := by
    intro y hy
    rw [← symm_dot hM]
    exact horth' _ (krylov_succ_mem hy)
  obtain ⟨β, hβ⟩ : ∃ β, β = r' ⬝ᵥ (M *ᵥ r') / (a * q) := ⟨_, rfl⟩
  have hβ0 : 0 ≤ β := by
    rw [hβ]
    have : 0 ≤ r' ⬝ᵥ (M *ᵥ r') := by
      by_cases h0 : r' = 0
      · rw [h0]; simp
      · refine (hpos _ ?_ h0).le
        rw [hr']
        exact S.sub_mem hrS (S.smul_mem _ (hS _))
    positivity
  -- M r' · M p = - r' · M r' / a
  have e2 : a * ((M *ᵥ r') ⬝ᵥ (M *ᵥ p)) = -(r' ⬝ᵥ (M *ᵥ r')) := by
    have e3 : a • (M *ᵥ p) = r - r' := by rw [hr']; module
    have e4 : a * ((M *ᵥ r') ⬝ᵥ (M *ᵥ p)) = (M *ᵥ r') ⬝ᵥ (a • (M *ᵥ p)) := by rw [dotProduct_smul, smul_eq_mul]
    rw [e4, e3, dotProduct_sub, ← symm_dot hM, ← symm_dot hM, horth' r hr_mem, zero_sub]
  refine ⟨a, β, s + a * c, 1 + β * c, -(a * g), t + a • u, β • u - (x + a • p), hapos.le, hβ0, ?_⟩
  rw [hx']
  refine ⟨hx'_mem, ?_, ?_, ?_, ?_, by omega, ?_, ?_, ?_, ?_, ?_, ?_, ?_⟩
  · rw [hx']; exact horth'
  · conv_lhs => rw [h.x_eq, h.p_eq]
    rw [mulVec_add, mulVec_smul]
    module
  · exact Submodule.add_mem _ (krylov_mono (by omega) h.t_mem) (Submodule.smul_mem _ _ h.u_mem)
  · have := h.s_nonneg; have := h.c_pos; positivity
  · rw [← hx']
    conv_lhs => rw [h.p_eq]
    rw [mulVec_sub, mulVec_smul, h.p_eq]
    module
  · exact Submodule.sub_mem _ (Submodule.smul_mem _ _ (hmono h.u_mem)) hx'_mem
  · have := h.c_pos; positivity
  · intro y hy
    obtain ⟨d, w, hw, rfl⟩ := hsplit y hy
    rw [mulVec_add, mulVec_smul, mulVec_add, mulVec_smul, dotProduct_add, dotProduct_smul, add_dotProduct, add_dotProduct, smul_dotProduct, smul_dotProduct, hr'_mem2 w hw, h.p_orth w hw, ← hqd]
    have : (M *ᵥ r') ⬝ᵥ (M *ᵥ p) + β * q = 0 := by
      have hne : a ≠ 0 := hapos.ne'
      apply mul_left_cancel₀ hne
      rw [mul_add, e2, hβ]
      have : q ≠ 0 := hq.ne'
      field_simp
      ring
    rw [smul_eq_mul, smul_eq_mul, this]
    simp
  · rw [hx']
    have : r' + β • p - r' = β • p := by module
    rw [this]
    exact Submodule.smul_mem _ _ hp_mem
  · -- leading coefficient
    have e3 : r' + β • p - (-(a * g)) • ((M ^ (k + 1)) *ᵥ b) = r - a • (M *ᵥ (p - g • ((M ^ k) *ᵥ b))) + β • p := by
      rw [hr', mulVec_sub, mulVec_smul, mulVec_mulVec, ← pow_succ']
      module
    rw [e3]
    exact Submodule.add_mem _ (Submodule.sub_mem _ hr_mem (Submodule.smul_mem _ _ (krylov_succ_mem h.lead))) (Submodule.smul_mem _ _ hp_mem)
  · have := h.g_ne
    simp [hapos.ne', this]

theorem krylov_le {M : Matrix (Fin n) (Fin n) α} {S : Submodule α (Fin n → α)} (hS : ∀ v, M *ᵥ v ∈ S) {b : Fin n → α} (hb : b ∈ S) (k : Nat) : krylov M b k ≤ S := by
  unfold krylov
  rw [Submodule.span_le]
  rintro v ⟨j, _, rfl⟩
  cases j with
  | zero => simpa using hb
  | succ j => rw [pow_succ', ← mulVec_mulVec]; exact hS _

/-- The best vector of a Krylov space has a non-negative inner product with its residual; the matrix need only be positive definite on a space which contains the right-hand side
and its range. -/
theorem best_dot_residual_on {M : Matrix (Fin n) (Fin n) α} (hM : M.IsSymm) {S : Submodule α (Fin n → α)} (hpos : ∀ v ∈ S, v ≠ 0 → 0 < v ⬝ᵥ (M *ᵥ v)) (hS : ∀ v, M *ᵥ v ∈ S)
    {b x : Fin n → α} (hb : b ∈ S) {k : Nat} (hx : x ∈ krylov M b k)
    (hbest : ∀ y ∈ krylov M b k, normSq (b - M *ᵥ x) ≤ normSq (b - M *ᵥ y)) : 0 ≤ x ⬝ᵥ (b - M *ᵥ x) := by
  have hinj : ∀ v ∈ S, M *ᵥ v = 0 → v = 0 := by
    intro v hvS hv
    by_contra hne
    have := hpos v hvS hne
    rw [hv] at this
    simp at this
  -- the conjugate residual method up to k
  have key : ∀ k, (∃ y ∈ krylov M b k, b - M *ᵥ y = 0) ∨ ∃ x p s c g t u, CRInv M b k x p s c g t u := by
    intro k
    induction k with
    | zero => exact .inr ⟨_, _, _, _, _, _, _, CRInv.start M b⟩
    | succ k ih =>
      rcases ih with ⟨y, hy, h0⟩ | ⟨x, p, s, c, g, t, u, h⟩
      · exact .inl ⟨y, krylov_mono (Nat.le_succ k) hy, h0⟩
      · by_cases hr : b - M *ᵥ x = 0
        · exact .inl ⟨x, krylov_mono (Nat.le_succ k) h.x_mem, hr⟩
        · obtain ⟨a, β, s', c', g', t', u', _, _, h'⟩ := h.step hM hpos hS hb hr
          exact .inr ⟨_, _, _, _, _, _, _, h'⟩
  rcases key k with ⟨y, hy, h0⟩ | ⟨y, p, s, c, g, t, u, h⟩
  · have h1 := hbest y hy
    rw [h0] at h1
    have h2 : normSq (b - M *ᵥ x) = 0 := le_antisymm (h1.trans (by simp [normSq])) (normSq_nonneg _)
    rw [normSq_zero h2]
    simp
  · have hxy : x = y := by
      have hmem : y - x ∈ krylov M b k := Submodule.sub_mem _ h.x_mem hx
      have h1 := h.orth _ hmem
      have h2 := hbest y h.x_mem
      have h3 : b - M *ᵥ x = (b - M *ᵥ y) + M *ᵥ (y - x) := by rw [mulVec_sub]; module
      rw [h3, normSq_eq, normSq_eq, add_dotProduct, dotProduct_add, dotProduct_add, dotProduct_comm (M *ᵥ (y - x)) (b - M *ᵥ y), h1] at h2
      have h4 : (M *ᵥ (y - x)) ⬝ᵥ (M *ᵥ (y - x)) = 0 := le_antisymm (by linarith) (normSq_nonneg _)
      have := hinj _ (krylov_le hS hb k hmem) (normSq_zero h4)
      exact (sub_eq_zero.1 this).symm
    rw [hxy]
    have hk : k = 0 ∨ 1 ≤ k := by omega
    rcases hk with hk | hk
    · have h0 := h.s_zero hk
      have ht : t = 0 := by
        have := h.t_mem
        subst hk
        have hbot : krylov M b 0 = ⊥ := by
          unfold krylov
          rw [Submodule.span_eq_bot]
          rintro x ⟨j, hj, _⟩
          omega
        rw [show (0 - 1 : Nat) = 0 from rfl, hbot] at this
        exact (Submodule.mem_bot α).1 this
      rw [h.x_eq, h0, ht]
      simp
    · have h1 : (M *ᵥ t) ⬝ᵥ (b - M *ᵥ y) = 0 := by
        rw [dotProduct_comm]
        exact h.orth _ (krylov_mono (by omega) h.t_mem)
      have h2 : b ⬝ᵥ (b - M *ᵥ y) = normSq (b - M *ᵥ y) := by
        have h3 := h.orth _ h.x_mem
        have h4 : b = (b - M *ᵥ y) + M *ᵥ y := by module
        conv_lhs => lhs; rw [h4]
        rw [add_dotProduct, dotProduct_comm (M *ᵥ y), h3, add_zero]
        rfl
      have h5 : y ⬝ᵥ (b - M *ᵥ y) = s * normSq (b - M *ᵥ y) := by
        conv_lhs => lhs; rw [h.x_eq]
        rw [add_dotProduct, smul_dotProduct, h1, h2, smul_eq_mul, add_zero]
      rw [h5]
      exact mul_nonneg h.s_nonneg (normSq_nonneg _)

/-- The best vector of a Krylov space has a non-negative inner product with its residual. -/
theorem best_dot_residual {M : Matrix (Fin n) (Fin n) α} (hM : M.IsSymm) (hpos : ∀ v, v ≠ 0 → 0 < v ⬝ᵥ (M *ᵥ v)) {b x : Fin n → α} {k : Nat} (hx : x ∈ krylov M b k)
    (hbest : ∀ y ∈ krylov M b k, normSq (b - M *ᵥ x) ≤ normSq (b - M *ᵥ y)) : 0 ≤ x ⬝ᵥ (b - M *ᵥ x) :=
  best_dot_residual_on hM (S := ⊤) (fun v _ h => hpos v h) (fun _ => trivial) trivial hx hbest

end Verif
