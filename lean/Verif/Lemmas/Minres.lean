import Verif.Spec.Krylov
import Verif.Lemmas.ReaderOpen
import Mathlib.LinearAlgebra.Matrix.Symmetric
import Mathlib.Tactic.Linarith
import Mathlib.Tactic.LinearCombination
import Mathlib.Tactic.FieldSimp
import Mathlib.Tactic.Module
import Mathlib.LinearAlgebra.FiniteDimensional.Lemmas
/-
MINRES: the Lanczos process and the plane rotations.
-/
set_option autoImplicit false
namespace Verif
variable {α : Type} [Field α] [LinearOrder α] [IsStrictOrderedRing α] {m n : Nat}
open Matrix

omit [IsStrictOrderedRing α] in
theorem normSq_eq (v : Fin n → α) : normSq v = v ⬝ᵥ v := rfl

theorem normSq_nonneg (v : Fin n → α) : 0 ≤ normSq v := Finset.sum_nonneg fun _ _ => mul_self_nonneg _

theorem normSq_zero {v : Fin n → α} (h : v ⬝ᵥ v = 0) : v = 0 := by
  funext i
  have := (Finset.sum_eq_zero_iff_of_nonneg (s := Finset.univ) (f := fun i => v i * v i) (fun _ _ => mul_self_nonneg _)).1 h i (Finset.mem_univ i)
  exact mul_self_eq_zero.1 this

omit [LinearOrder α] [IsStrictOrderedRing α] in
theorem symm_dot {M : Matrix (Fin n) (Fin n) α} (hM : M.IsSymm) (u v : Fin n → α) : u ⬝ᵥ M *ᵥ v = M *ᵥ u ⬝ᵥ v := by
  rw [Matrix.dotProduct_mulVec, ← Matrix.mulVec_transpose, hM.eq]

/-- The Lanczos step on abstract vectors. -/
theorem lanczos_orth {M : Matrix (Fin n) (Fin n) α} (hM : M.IsSymm) {K : Submodule α (Fin n → α)} {v0 v1 : Fin n → α} {β : α}
    (perp : ∀ p ∈ K, p ⬝ᵥ v1 = 0) (T : ∀ p ∈ K, M *ᵥ p ⬝ᵥ v1 = β * (p ⬝ᵥ v0)) (hv0 : v0 ∈ K) (h1 : v1 ⬝ᵥ v1 = 1) {y : Fin n → α} {a : α}
    (ha : a = v1 ⬝ᵥ (M *ᵥ v1 - β • v0)) (hy : y = (M *ᵥ v1 - β • v0) - a • v1) : ∀ p ∈ K ⊔ Submodule.span α {v1}, p ⬝ᵥ y = 0 := by
  intro p hp
  obtain ⟨q, hq, r, hr, rfl⟩ := Submodule.mem_sup.1 hp
  obtain ⟨c, rfl⟩ := Submodule.mem_span_singleton.1 hr
  have e1 : q ⬝ᵥ y = 0 := by
    rw [hy, dotProduct_sub, dotProduct_sub, symm_dot hM, T q hq, dotProduct_smul, dotProduct_smul, perp q hq]
    simp
  have e2 : v1 ⬝ᵥ y = 0 := by rw [hy, dotProduct_sub, ← ha, dotProduct_smul, h1]; simp
  rw [add_dotProduct, smul_dotProduct, e1, e2]; simp

omit [LinearOrder α] [IsStrictOrderedRing α] in
theorem krylov_succ_mem {M : Matrix (Fin n) (Fin n) α} {b : Fin n → α} {k : Nat} {v : Fin n → α} (h : v ∈ krylov M b k) : M *ᵥ v ∈ krylov M b (k + 1) := by
  unfold krylov at *
  induction h using Submodule.span_induction with
  | mem x hx =>
    obtain ⟨j, hj, rfl⟩ := hx
    exact Submodule.subset_span ⟨j + 1, by omega, by rw [Matrix.mulVec_mulVec, pow_succ']⟩
  | zero => rw [Matrix.mulVec_zero]; exact Submodule.zero_mem _
  | add x y _ _ h1 h2 => rw [Matrix.mulVec_add]; exact Submodule.add_mem _ h1 h2
  | smul a x _ h1 => rw [Matrix.mulVec_smul]; exact Submodule.smul_mem _ _ h1

omit [LinearOrder α] [IsStrictOrderedRing α] in
theorem krylov_mono {M : Matrix (Fin n) (Fin n) α} {b : Fin n → α} {k l : Nat} (h : k ≤ l) : krylov M b k ≤ krylov M b l :=
  Submodule.span_mono fun _ ⟨j, hj, e⟩ => ⟨j, by omega, e⟩

/-- What holds of the variables of the loop after every iteration: `v1` is the next Lanczos vector, `z1` the direction of the residual. -/
structure MinresInv (M : Matrix (Fin n) (Fin n) α) (b : Fin n → α) (st : MinresState α n) (v0 v1 z0 z1 : Fin n → α) : Prop where
  beta_nonneg : 0 ≤ st.beta
  y_eq : st.y = st.beta • v1
  r2_eq : st.r2 = st.beta • v1
  r1_eq : 1 ≤ st.itn → st.oldb ≠ 0 ∧ st.r1 = st.oldb • v0
  v0_zero : st.itn = 0 → v0 = 0
  unit : st.beta ≠ 0 → v1 ⬝ᵥ v1 = 1
  w_mem : st.w ∈ krylov M b st.itn
  w2_mem : st.w2 ∈ krylov M b st.itn
  v0_mem : v0 ∈ krylov M b st.itn
  z0_mem : z0 ∈ krylov M b st.itn
  x_mem : st.x ∈ krylov M b st.itn
  v1_mem : v1 ∈ krylov M b (st.itn + 1)
  next : krylov M b (st.itn + 1) ≤ krylov M b st.itn ⊔ Submodule.span α {v1}
  perp : ∀ p ∈ krylov M b st.itn, p ⬝ᵥ v1 = 0
  three : ∀ p ∈ krylov M b st.itn, M *ᵥ p ⬝ᵥ v1 = st.beta * (p ⬝ᵥ v0)
  R1 : st.beta • v0 - st.epsln • M *ᵥ st.w2 = st.dbar • z0
  R2 : M *ᵥ st.w = st.cs • z0 + st.sn • v1
  R3 : z1 = st.sn • z0 - st.cs • v1
  rot : st.cs * st.cs + st.sn * st.sn = 1
  res : b - M *ᵥ st.x = st.phibar • z1
  zz : st.beta ≠ 0 → z1 ⬝ᵥ z1 = 1
  stuck : st.beta = 0 → st.phibar = 0
  phi_nonneg : 0 ≤ st.phibar
  opt : ∀ p ∈ krylov M b st.itn, z1 ⬝ᵥ M *ᵥ p = 0
  rank : Module.finrank α (krylov M b st.itn) = st.itn
  RZ : st.sn • M *ᵥ z0 - (st.cs * st.beta) • v0 = (st.sn * st.dbar) • v1

omit [IsStrictOrderedRing α] in
theorem npDiv_ok {a b c : α} (h : npDiv a b = .ok c) : b ≠ 0 ∧ c = a / b := by
  unfold npDiv at h
  by_cases hb : b = 0
  · rw [if_pos hb] at h; cases h
  · rw [if_neg hb] at h; cases h; exact ⟨hb, rfl⟩

/-- What a Lanczos step of the code computes. -/
theorem lanczos_eq {M0 : Matrix (Fin n) (Fin n) α} {opts : MinresOpts α} {A : (Fin n → α) → Py (Fin n → α)} (hA : ∀ v, A v = .ok (M0 *ᵥ v))
    {b : Fin n → α} {st : MinresState α n} {v0 v1 z0 z1 : Fin n → α} (h : MinresInv (M0 - opts.shift • 1) b st v0 v1 z0 z1) {lz : LanczosStep α n}
    (hl : st.lanczos opts A = .ok lz) :
    st.beta ≠ 0 ∧ lz.v = v1 ∧ lz.alfa = v1 ⬝ᵥ ((M0 - opts.shift • 1) *ᵥ v1 - st.beta • v0) ∧
      lz.y = ((M0 - opts.shift • 1) *ᵥ v1 - st.beta • v0) - lz.alfa • v1 := by
  unfold MinresState.lanczos at hl
  obtain ⟨s, h1, hl⟩ := bind_ok.1 hl
  obtain ⟨hb, rfl⟩ := npDiv_ok h1
  obtain ⟨y, h2, hl⟩ := bind_ok.1 hl
  obtain ⟨y', h3, hl⟩ := bind_ok.1 hl
  obtain ⟨q, h4, hl⟩ := bind_ok.1 hl
  obtain ⟨_, rfl⟩ := npDiv_ok h4
  rw [pure_ok] at hl
  rename' hl => hfin
  have hv : (1 / st.beta) • st.y = v1 := by
    rw [h.y_eq, smul_smul, one_div, inv_mul_cancel₀ hb, one_smul]
  rw [hA] at h2
  cases h2
  have hsh : M0 *ᵥ ((1 / st.beta) • st.y) - opts.shift • ((1 / st.beta) • st.y) = (M0 - opts.shift • 1) *ᵥ v1 := by
    rw [hv, Matrix.sub_mulVec, Matrix.smul_mulVec, Matrix.one_mulVec]
  rw [hsh] at h3
  have hy' : y' = (M0 - opts.shift • 1) *ᵥ v1 - st.beta • v0 := by
    unfold MinresState.orthogonalise at h3
    by_cases hi : 2 ≤ st.itn + 1
    · rw [if_pos hi] at h3
      obtain ⟨q, h5, h3⟩ := bind_ok.1 h3
      obtain ⟨ho, rfl⟩ := npDiv_ok h5
      rw [pure_ok] at h3
      rw [← h3, (h.r1_eq (by omega)).2, smul_smul, div_mul_cancel₀ _ ho]
    · rw [if_neg hi, pure_ok] at h3
      rw [← h3, h.v0_zero (by omega)]; simp
  subst hfin
  refine ⟨hb, hv, by rw [← hy', hv], ?_⟩
  simp only
  rw [hv, ← hy', h.r2_eq, smul_smul, div_mul_cancel₀ _ hb, neg_smul]
  abel

/-- Dot products in the space spanned by two orthogonal vectors. -/
theorem rot_dot {z v : Fin n → α} (hzv : z ⬝ᵥ v = 0) (a b c d : α) :
    (a • z + b • v) ⬝ᵥ (c • z + d • v) = a * c * (z ⬝ᵥ z) + b * d * (v ⬝ᵥ v) := by
  have hvz : v ⬝ᵥ z = 0 := by rw [dotProduct_comm]; exact hzv
  simp only [add_dotProduct, dotProduct_add, smul_dotProduct, dotProduct_smul, smul_eq_mul, hzv, hvz]
  ring

/-- One iteration keeps the invariant. -/
theorem advance_inv {M : Matrix (Fin n) (Fin n) α} (hM : M.IsSymm) {opts : MinresOpts α} (heps : 0 < opts.eps) (hσ : BoundedBelow M opts.eps)
    {sqrt : α → Py α} (hs : IsSqrt sqrt) {b : Fin n → α} {st st' : MinresState α n} {v0 v1 z0 z1 : Fin n → α} (h : MinresInv M b st v0 v1 z0 z1)
    {lz : LanczosStep α n} (hb : st.beta ≠ 0) (hv : lz.v = v1) (ha : lz.alfa = v1 ⬝ᵥ (M *ᵥ v1 - st.beta • v0))
    (hy : lz.y = (M *ᵥ v1 - st.beta • v0) - lz.alfa • v1) {beta beta1 : α} (hbeta : sqrt (lz.y ⬝ᵥ lz.y) = .ok beta)
    (hadv : st.advance opts sqrt beta1 lz beta = .ok st') :
    (∃ v2 z2, MinresInv M b st' v1 v2 z1 z2) ∧ st'.itn = st.itn + 1 ∧ st'.rnorm = st'.phibar ∧ st'.phibar ≤ st.phibar ∧
      st'.residHistory = st.residHistory ++ [st'.phibar] ∧ st'.Arnorm * st'.Arnorm = normSq (M *ᵥ (b - M *ᵥ st.x)) ∧ 0 ≤ st'.Arnorm := by
  obtain ⟨b0, bb⟩ := hs _ _ hbeta
  have hunit := h.unit hb
  have horth := lanczos_orth hM h.perp h.three h.v0_mem hunit ha hy
  have hzz := h.zz hb
  -- the next Lanczos vector
  obtain ⟨v2, hv2⟩ : ∃ v2 : Fin n → α, v2 = if beta = 0 then 0 else (1 / beta) • lz.y := ⟨_, rfl⟩
  have yv2 : lz.y = beta • v2 := by
    by_cases h0 : beta = 0
    · rw [hv2, if_pos h0, smul_zero]
      rw [h0, mul_zero] at bb
      exact normSq_zero bb.symm
    · rw [hv2, if_neg h0, smul_smul, mul_one_div_cancel h0, one_smul]
  have unit2 : beta ≠ 0 → v2 ⬝ᵥ v2 = 1 := by
    intro h0
    rw [hv2, if_neg h0, smul_dotProduct, dotProduct_smul, ← bb]
    simp only [smul_eq_mul]; field_simp
  have hMv : M *ᵥ v1 = st.beta • v0 + lz.alfa • v1 + beta • v2 := by rw [← yv2, hy]; abel
  have v1K : krylov M b (st.itn + 1) = krylov M b st.itn ⊔ Submodule.span α {v1} :=
    le_antisymm h.next (sup_le (krylov_mono (by omega)) (by rw [Submodule.span_singleton_le_iff_mem]; exact h.v1_mem))
  have perp2 : ∀ p ∈ krylov M b (st.itn + 1), p ⬝ᵥ v2 = 0 := by
    intro p hp
    by_cases h0 : beta = 0
    · rw [hv2, if_pos h0]; simp
    · rw [hv2, if_neg h0, dotProduct_smul, horth p (v1K ▸ hp), smul_zero]
  have z1_mem : z1 ∈ krylov M b (st.itn + 1) := by
    rw [h.R3]
    exact Submodule.sub_mem _ (Submodule.smul_mem _ _ (krylov_mono (by omega) h.z0_mem)) (Submodule.smul_mem _ _ h.v1_mem)
  have hz1v2 := perp2 z1 z1_mem
  unfold MinresState.advance at hadv
  obtain ⟨root, h1, hadv⟩ := bind_ok.1 hadv
  obtain ⟨hyp, h2, hadv⟩ := bind_ok.1 hadv
  obtain ⟨i10, h3, hadv⟩ := bind_ok.1 hadv
  obtain ⟨Anorm, h4, hadv⟩ := bind_ok.1 hadv
  obtain ⟨ynorm, h5, hadv⟩ := bind_ok.1 hadv
  obtain ⟨test1, h6, hadv⟩ := bind_ok.1 hadv
  obtain ⟨test2, h7, hadv⟩ := bind_ok.1 hadv
  rw [pure_ok] at hadv
  obtain ⟨g0, gg⟩ := hs _ _ h2
  -- the rotated direction before normalisation
  obtain ⟨delta, hdelta⟩ : ∃ d, d = st.cs * st.dbar + st.sn * lz.alfa := ⟨_, rfl⟩
  obtain ⟨gbar, hgbar⟩ : ∃ d, d = st.sn * st.dbar - st.cs * lz.alfa := ⟨_, rfl⟩
  obtain ⟨u, hu⟩ : ∃ u, u = v1 - st.epsln • st.w2 - delta • st.w := ⟨_, rfl⟩
  have hMu : M *ᵥ u = gbar • z1 + beta • v2 := by
    rw [hu, Matrix.mulVec_sub, Matrix.mulVec_sub, Matrix.mulVec_smul, Matrix.mulVec_smul, hMv]
    funext i
    have r1 := congrFun h.R1 i
    have r2 := congrFun h.R2 i
    have r3 := congrFun h.R3 i
    simp only [Pi.sub_apply, Pi.smul_apply, Pi.add_apply, smul_eq_mul] at r1 r2 r3 ⊢
    rw [r3, hgbar]
    have rot := h.rot
    linear_combination r1 - delta * r2 - (st.cs * z0 i + st.sn * v1 i) * hdelta - (lz.alfa * v1 i + st.dbar * z0 i) * (rot)
  have hyp_eps : opts.eps ≤ hyp := by
    by_contra hlt
    rw [not_le] at hlt
    have e1 := hσ u
    rw [normSq_eq, normSq_eq, hMu, rot_dot hz1v2, hzz] at e1
    have e2 : 1 ≤ u ⬝ᵥ u := by
      obtain ⟨q, hq⟩ : ∃ q, q = st.epsln • st.w2 + delta • st.w := ⟨_, rfl⟩
      have hqK : q ∈ krylov M b st.itn := hq ▸ Submodule.add_mem _ (Submodule.smul_mem _ _ h.w2_mem) (Submodule.smul_mem _ _ h.w_mem)
      have : u = v1 - q := by rw [hu, hq]; abel
      have e3 := h.perp q hqK
      have e4 : v1 ⬝ᵥ q = 0 := by rw [dotProduct_comm]; exact e3
      rw [this]
      simp only [sub_dotProduct, dotProduct_sub, hunit, e3, e4]
      have := normSq_nonneg q
      rw [normSq_eq] at this
      linarith
    have e5 : beta * beta * (v2 ⬝ᵥ v2) = beta ^ 2 := by
      by_cases h0 : beta = 0
      · rw [h0]; simp
      · rw [unit2 h0]; ring
    have e6 : hyp * hyp < opts.eps * opts.eps := mul_self_lt_mul_self g0 hlt
    rw [← hgbar] at gg
    have e7 : opts.eps * opts.eps ≤ opts.eps * opts.eps * (u ⬝ᵥ u) := le_mul_of_one_le_right (mul_self_nonneg _) e2
    nlinarith
  have hmax : max hyp opts.eps = hyp := max_eq_left hyp_eps
  have gpos : 0 < hyp := lt_of_lt_of_le heps hyp_eps
  rw [← hgbar] at gg
  rw [hmax, ← hgbar, ← hdelta, hv, ← hu] at hadv
  subst hadv
  have rot' : gbar / hyp * (gbar / hyp) + beta / hyp * (beta / hyp) = 1 := by
    have : hyp ≠ 0 := gpos.ne'
    field_simp
    linear_combination -gg
  have wmem : (1 / hyp) • u ∈ krylov M b (st.itn + 1) := by
    rw [hu]
    exact Submodule.smul_mem _ _ (Submodule.sub_mem _ (Submodule.sub_mem _ h.v1_mem (Submodule.smul_mem _ _ (krylov_mono (by omega) h.w2_mem)))
      (Submodule.smul_mem _ _ (krylov_mono (by omega) h.w_mem)))
  have hMw : M *ᵥ ((1 / hyp) • u) = (gbar / hyp) • z1 + (beta / hyp) • v2 := by
    rw [Matrix.mulVec_smul, hMu, smul_add, smul_smul, smul_smul]
    congr 2 <;> ring
  have v2_mem : v2 ∈ krylov M b (st.itn + 1 + 1) := by
    have hym : lz.y ∈ krylov M b (st.itn + 1 + 1) := by
      rw [hy]
      exact Submodule.sub_mem _ (Submodule.sub_mem _ (krylov_succ_mem h.v1_mem) (Submodule.smul_mem _ _ (krylov_mono (by omega) h.v0_mem)))
        (Submodule.smul_mem _ _ (krylov_mono (by omega) h.v1_mem))
    rw [hv2]
    by_cases h0 : beta = 0
    · rw [if_pos h0]; exact Submodule.zero_mem _
    · rw [if_neg h0]; exact Submodule.smul_mem _ _ hym
  have three2 : ∀ p ∈ krylov M b (st.itn + 1), M *ᵥ p ∈ krylov M b (st.itn + 1) ⊔ Submodule.span α {v2} := by
    intro p hp
    obtain ⟨q, hq, r, hr, rfl⟩ := Submodule.mem_sup.1 (h.next hp)
    obtain ⟨c, rfl⟩ := Submodule.mem_span_singleton.1 hr
    rw [Matrix.mulVec_add, Matrix.mulVec_smul, hMv]
    refine Submodule.add_mem _ (Submodule.mem_sup_left (krylov_succ_mem hq)) (Submodule.smul_mem _ _ (Submodule.add_mem _ (Submodule.mem_sup_left ?_)
      (Submodule.mem_sup_right (Submodule.smul_mem _ _ (Submodule.mem_span_singleton_self _)))))
    exact Submodule.add_mem _ (Submodule.smul_mem _ _ (krylov_mono (Nat.le_succ _) h.v0_mem)) (Submodule.smul_mem _ _ h.v1_mem)
  have next2 : krylov M b (st.itn + 1 + 1) ≤ krylov M b (st.itn + 1) ⊔ Submodule.span α {v2} := by
    unfold krylov
    rw [Submodule.span_le]
    rintro _ ⟨j, hj, rfl⟩
    by_cases hj' : j < st.itn + 1
    · exact Submodule.mem_sup_left (Submodule.subset_span ⟨j, hj', rfl⟩)
    · obtain rfl : j = st.itn + 1 := by omega
      rw [pow_succ', ← Matrix.mulVec_mulVec]
      exact three2 _ (Submodule.subset_span ⟨st.itn, by omega, rfl⟩)
  have hMz : M *ᵥ z1 = gbar • v1 + (-st.cs * beta) • v2 := by
    have e : M *ᵥ z1 = st.sn • M *ᵥ z0 - st.cs • M *ᵥ v1 := by rw [h.R3, Matrix.mulVec_sub, Matrix.mulVec_smul, Matrix.mulVec_smul]
    rw [e, hMv, hgbar]
    funext i
    have r := congrFun h.RZ i
    simp only [Pi.sub_apply, Pi.smul_apply, Pi.add_apply, smul_eq_mul] at r ⊢
    linear_combination r
  refine ⟨⟨v2, (beta / hyp) • z1 - (gbar / hyp) • v2, ?_⟩, rfl, rfl, ?_, rfl, ?_, ?_⟩
  · constructor
    · exact b0
    · exact yv2
    · exact yv2
    · exact fun _ => ⟨hb, h.r2_eq⟩
    · exact fun hh => absurd hh (by simp)
    · exact unit2
    · exact wmem
    · exact krylov_mono (Nat.le_succ _) h.w_mem
    · exact h.v1_mem
    · exact z1_mem
    · exact Submodule.add_mem _ (krylov_mono (Nat.le_succ _) h.x_mem) (Submodule.smul_mem _ _ wmem)
    · exact v2_mem
    · exact next2
    · exact perp2
    · intro p hp
      obtain ⟨q, hq, r, hr, rfl⟩ := Submodule.mem_sup.1 (h.next hp)
      obtain ⟨c, rfl⟩ := Submodule.mem_span_singleton.1 hr
      have e1 : M *ᵥ q ⬝ᵥ v2 = 0 := perp2 _ (krylov_succ_mem hq)
      have e2 := h.perp q hq
      have e3 : M *ᵥ v1 ⬝ᵥ v2 = beta := by
        rw [hMv]
        simp only [add_dotProduct, smul_dotProduct, perp2 _ (krylov_mono (Nat.le_succ _) h.v0_mem), perp2 _ h.v1_mem]
        by_cases h0 : beta = 0
        · rw [h0]; simp
        · rw [unit2 h0]; simp
      rw [Matrix.mulVec_add, Matrix.mulVec_smul, add_dotProduct, smul_dotProduct, e1, e3, add_dotProduct, smul_dotProduct, e2, hunit]
      simp [mul_comm]
    · show beta • v1 - (st.sn * beta) • M *ᵥ st.w = (-st.cs * beta) • z1
      rw [h.R2, h.R3]
      funext i
      simp only [Pi.sub_apply, Pi.smul_apply, Pi.add_apply, smul_eq_mul]
      linear_combination -(beta * v1 i) * h.rot
    · exact hMw
    · rfl
    · exact rot'
    · show b - M *ᵥ (st.x + (gbar / hyp * st.phibar) • ((1 / hyp) • u)) = (beta / hyp * st.phibar) • ((beta / hyp) • z1 - (gbar / hyp) • v2)
      rw [Matrix.mulVec_add, Matrix.mulVec_smul, hMw]
      funext i
      have r := congrFun h.res i
      simp only [Pi.sub_apply, Pi.smul_apply, Pi.add_apply, smul_eq_mul] at r ⊢
      linear_combination r - st.phibar * z1 i * rot'
    · intro h0
      have : (beta / hyp) • z1 - (gbar / hyp) • v2 = (beta / hyp) • z1 + (-(gbar / hyp)) • v2 := by rw [neg_smul]; abel
      rw [this, rot_dot hz1v2, hzz, unit2 h0]
      linear_combination rot'
    · intro h0
      show beta / hyp * st.phibar = 0
      have h0' : beta = 0 := h0
      rw [h0']; simp
    · exact mul_nonneg (div_nonneg b0 gpos.le) h.phi_nonneg
    · intro p hp
      obtain ⟨q, hq, r, hr, rfl⟩ := Submodule.mem_sup.1 (h.next hp)
      obtain ⟨c, rfl⟩ := Submodule.mem_span_singleton.1 hr
      obtain ⟨q', hq'⟩ : ∃ q', q' = q + c • (st.epsln • st.w2 + delta • st.w) := ⟨_, rfl⟩
      have hq'K : q' ∈ krylov M b st.itn := by
        rw [hq']
        exact Submodule.add_mem _ hq (Submodule.smul_mem _ _ (Submodule.add_mem _ (Submodule.smul_mem _ _ h.w2_mem) (Submodule.smul_mem _ _ h.w_mem)))
      have hp' : q + c • v1 = q' + (c * hyp) • ((1 / hyp) • u) := by
        rw [hq', smul_smul, mul_assoc, mul_one_div_cancel gpos.ne', mul_one, hu]
        module
      have e1 := h.opt q' hq'K
      have e2 : v2 ⬝ᵥ M *ᵥ q' = 0 := by rw [dotProduct_comm]; exact perp2 _ (krylov_succ_mem hq'K)
      have e3 : ((beta / hyp) • z1 - (gbar / hyp) • v2) ⬝ᵥ M *ᵥ ((1 / hyp) • u) = 0 := by
        have : (beta / hyp) • z1 - (gbar / hyp) • v2 = (beta / hyp) • z1 + (-(gbar / hyp)) • v2 := by rw [neg_smul]; abel
        rw [hMw, this, rot_dot hz1v2, hzz]
        by_cases h0 : beta = 0
        · rw [h0]; simp
        · rw [unit2 h0]; ring
      rw [hp', Matrix.mulVec_add, Matrix.mulVec_smul, dotProduct_add, dotProduct_smul, e3, sub_dotProduct, smul_dotProduct, smul_dotProduct, e1, e2]
      simp
    · show Module.finrank α (krylov M b (st.itn + 1)) = st.itn + 1
      have hv1 : v1 ≠ 0 := by intro h0; rw [h0] at hunit; simp at hunit
      have hinf : krylov M b st.itn ⊓ Submodule.span α {v1} = ⊥ := by
        rw [eq_bot_iff]
        rintro p ⟨hp, hp'⟩
        obtain ⟨c, rfl⟩ := Submodule.mem_span_singleton.1 hp'
        have := h.perp _ hp
        rw [smul_dotProduct, hunit] at this
        simp at this
        rw [this, zero_smul]; exact Submodule.zero_mem _
      have e := Submodule.finrank_sup_add_finrank_inf_eq (krylov M b st.itn) (Submodule.span α {v1})
      rw [hinf, finrank_bot, finrank_span_singleton hv1, h.rank, ← v1K] at e
      omega
    · show (beta / hyp) • M *ᵥ z1 - (gbar / hyp * beta) • v1 = (beta / hyp * (-st.cs * beta)) • v2
      rw [hMz]
      funext i
      simp only [Pi.sub_apply, Pi.smul_apply, Pi.add_apply, smul_eq_mul]
      ring
  · show beta / hyp * st.phibar ≤ st.phibar
    have : beta / hyp ≤ 1 := by
      rw [div_le_one gpos]
      exact abs_le_of_sq_le_sq' (by nlinarith [sq_nonneg gbar]) gpos.le |>.2
    exact mul_le_of_le_one_left h.phi_nonneg this
  · obtain ⟨r0, rr⟩ := hs _ _ h1
    show st.phibar * root * (st.phibar * root) = _
    rw [h.res, Matrix.mulVec_smul, hMz, normSq_eq, smul_dotProduct, dotProduct_smul, rot_dot (perp2 _ h.v1_mem), hunit]
    have e5 : -st.cs * beta * (-st.cs * beta) * (v2 ⬝ᵥ v2) = (-st.cs * beta) ^ 2 := by
      by_cases h0 : beta = 0
      · rw [h0]; simp
      · rw [unit2 h0]; ring
    rw [e5]
    rw [← hgbar] at rr
    simp only [smul_eq_mul]
    linear_combination st.phibar * st.phibar * rr
  · exact mul_nonneg h.phi_nonneg (hs _ _ h1).1

end Verif
