import Verif.Lemmas.LsmrInv
/-
LSMR: one turn of the loop keeps the invariant.
-/
set_option autoImplicit false
namespace Verif
variable {α : Type} [Field α] [LinearOrder α] [IsStrictOrderedRing α] {m n : Nat}
open Matrix

/-- One turn of the loop. -/
theorem lsmr_step {A0 : Matrix (Fin m) (Fin n) α} {b : Fin m → α} {opts : LsmrOpts α} {sqrt : α → Py α} (hs : IsSqrt sqrt)
    {A : (Fin n → α) → Py (Fin m → α)} {AH : (Fin m → α) → Py (Fin n → α)} (hA : ∀ v, A v = .ok (A0 *ᵥ v)) (hAH : ∀ u, AH u = .ok (A0ᵀ *ᵥ u))
    {st st' : LsmrState α m n} {v0 z0 z : Fin n → α} {qt y : Fin m → α} {tau : α} (h : LsmrInv A0 b st v0 z0 z qt y tau)
    {c s ct sl rt taud : α} (t : LsmrCore opts sqrt A AH st st' c s ct sl rt taud) :
    LsmrPost A0 b st' ∧ |st'.zetabar| ≤ |st.zetabar| ∧ (st'.zetabar = 0 ∨ ∃ z' qt' y', LsmrInv A0 b st' st.v z z' qt' y' taud) := by
  obtain ⟨hAv, hb0, hbne, hbz⟩ := bidiag_ok hs hA hAH t.bidiag
  simp only at hAv hb0 hbne hbz
  have rho0 : st'.rho ≠ 0 := fun h0 => t.rr (by rw [h0, zero_mul])
  have rhobar0 : st'.rhobar ≠ 0 := fun h0 => t.rr (by rw [h0, mul_zero])
  have rhop : 0 < st'.rho := lt_of_le_of_ne t.rho_nonneg (Ne.symm rho0)
  have rhobarp : 0 < st'.rhobar := lt_of_le_of_ne t.rhobar_nonneg (Ne.symm rhobar0)
  have hrr : st.rho * st.rhobar ≠ 0 := (mul_pos h.rho_pos h.rhobar_pos).ne'
  have s0 : st'.beta = 0 → s = 0 := by
    intro h0
    have := t.s_rho
    rw [h0] at this
    exact (mul_eq_zero.1 this).resolve_right rho0
  -- a live turn has both norms positive
  have dead : s * st'.alpha = 0 → st'.zetabar = 0 := by
    intro h0
    have := t.sb
    rw [h0] at this
    have : st'.sbar = 0 := (mul_eq_zero.1 this).resolve_right rhobar0
    rw [t.zetabar, this]; simp
  have hAu : s • A0ᵀ *ᵥ st'.u = (s * st'.beta) • st.v + (s * st'.alpha) • st'.v := by
    by_cases hb : st'.beta = 0
    · rw [s0 hb]; simp
    · rw [(hbne hb).2.2.1, smul_add, smul_smul, smul_smul]
  -- the directions
  obtain ⟨q, hq⟩ : ∃ q, q = c • qt + s • st'.u := ⟨_, rfl⟩
  obtain ⟨z', hz'⟩ : ∃ z', z' = -st'.sbar • z + st'.cbar • st'.v := ⟨_, rfl⟩
  obtain ⟨qt', hqt'⟩ : ∃ qt', qt' = -s • qt + c • st'.u := ⟨_, rfl⟩
  obtain ⟨y', hy'⟩ : ∃ y', y' = -sl • y + ct • q := ⟨_, rfl⟩
  have hAh : A0 *ᵥ st.h = st'.rho • q := by
    have : st.h = (st.h - st.v) + st.v := by abel
    rw [this, Matrix.mulVec_add, h.hv_eq, hAv, hq, ← t.c_rho, ← t.s_rho]
    module
  have hAq : A0ᵀ *ᵥ q = st'.rho • st.v + (s * st'.alpha) • st'.v := by
    rw [hq, Matrix.mulVec_add, Matrix.mulVec_smul, Matrix.mulVec_smul, h.qt_eq, hAu, ← t.c_rho, ← t.s_rho]
    funext i
    simp only [Pi.add_apply, Pi.smul_apply, smul_eq_mul]
    linear_combination st'.rho * st.v i * t.rot
  have hMh : (A0ᵀ * A0) *ᵥ st.h = st'.rho • (st'.rho • st.v + (s * st'.alpha) • st'.v) := by
    rw [← Matrix.mulVec_mulVec, hAh, Matrix.mulVec_smul, hAq]
  have hMhbar : (A0ᵀ * A0) *ᵥ st'.hbar = (st'.rho * st'.rhobar) • (st'.cbar • z + st'.sbar • st'.v) := by
    rw [t.hbar, Matrix.mulVec_sub, Matrix.mulVec_smul, hMh, h.MH, smul_smul, div_mul_cancel₀ _ hrr]
    funext i
    have e := congrFun h.z_eq i
    simp only [Pi.add_apply, Pi.sub_apply, Pi.smul_apply, smul_eq_mul] at e ⊢
    rw [e]
    linear_combination (-(st'.rho * (-st.sbar * z0 i + st.cbar * st.v i))) * t.cb - st'.rho * st'.v i * t.sb - st'.rho * st'.rho * st.v i * h.rotb
  have hgrad : A0ᵀ *ᵥ (b - A0 *ᵥ st'.x) = st'.zetabar • z' := by
    have e : A0ᵀ *ᵥ (b - A0 *ᵥ st'.x) = A0ᵀ *ᵥ (b - A0 *ᵥ st.x) - (st'.zeta / (st'.rho * st'.rhobar)) • (A0ᵀ * A0) *ᵥ st'.hbar := by
      rw [t.x, Matrix.mulVec_add, Matrix.mulVec_smul, ← Matrix.mulVec_mulVec, ← sub_sub, Matrix.mulVec_sub _ _ (_ • _), Matrix.mulVec_smul]
    rw [e, h.grad, hMhbar, smul_smul, div_mul_cancel₀ _ t.rr, t.zeta, t.zetabar, hz']
    funext i
    simp only [Pi.add_apply, Pi.sub_apply, Pi.smul_apply, smul_eq_mul]
    linear_combination -(st.zetabar * z i) * t.rotb
  -- memberships
  have hbar_mem : st'.hbar ∈ krylov (A0ᵀ * A0) (A0ᵀ *ᵥ b) (st.itn + 1) := by
    have : st.h = (st.h - st.v) + st.v := by abel
    rw [t.hbar, this]
    exact Submodule.sub_mem _ (Submodule.add_mem _ (krylov_mono (Nat.le_succ _) h.hv_mem) h.v_mem) (Submodule.smul_mem _ _ (krylov_mono (Nat.le_succ _) h.hbar_mem))
  have x_mem : st'.x ∈ krylov (A0ᵀ * A0) (A0ᵀ *ᵥ b) (st.itn + 1) := by
    rw [t.x]
    exact Submodule.add_mem _ (krylov_mono (Nat.le_succ _) h.x_mem) (Submodule.smul_mem _ _ hbar_mem)
  have z_mem : z ∈ krylov (A0ᵀ * A0) (A0ᵀ *ᵥ b) (st.itn + 1) := by
    rw [h.z_eq]
    exact Submodule.add_mem _ (Submodule.smul_mem _ _ (krylov_mono (Nat.le_succ _) h.z0_mem)) (Submodule.smul_mem _ _ h.v_mem)
  -- the residual
  have ctrt : 0 < ct := by
    have : 0 < ct * rt := by rw [t.ct_rt]; exact h.rhod_pos
    exact pos_of_mul_pos_left this t.rt_nonneg
  have cpos : 0 < c := by
    have : 0 < c * st'.rho := by rw [t.c_rho]; exact h.abar_pos
    exact pos_of_mul_pos_left this t.rho_nonneg
  have htt : st'.tautildeold = ct * tau := by
    have : st'.tautildeold * rt = ct * tau * rt := by rw [t.tautilde, ← h.tau_eq, ← t.ct_rt]; ring
    exact mul_right_cancel₀ t.rt0 this
  have htd : taud * st'.rhodold = st'.zeta - sl * st'.rhodold * tau := by rw [t.taud_eq, htt, t.thetatilde, t.rhodold]; ring
  have hAhbar : st'.rhodold • A0 *ᵥ st'.hbar = (st'.rho * st'.rhobar) • y' := by
    have e1 : A0 *ᵥ st.hbar = (st.rho * st.rhobar / st.rhodold) • y := by
      have : st.rhodold • A0 *ᵥ st.hbar = st.rhodold • ((st.rho * st.rhobar / st.rhodold) • y) := by
        rw [h.Ahbar, smul_smul, mul_div_cancel₀ _ h.rhod_pos.ne']
      exact smul_right_injective _ h.rhod_pos.ne' this
    rw [t.hbar, Matrix.mulVec_sub, Matrix.mulVec_smul, hAh, e1, smul_smul, hy', t.rhodold]
    have e2 : st.sbar * st'.rho * st'.rho / (st.rho * st.rhobar) * (st.rho * st.rhobar / st.rhodold) = st'.rho * sl / ct := by
      rw [← t.sl_rt, ← t.ct_rt]
      have := t.rt0
      have := ctrt.ne'
      have := h.rho_pos.ne'
      have := h.rhobar_pos.ne'
      field_simp
    rw [e2]
    funext i
    simp only [Pi.add_apply, Pi.sub_apply, Pi.smul_apply, smul_eq_mul]
    have := ctrt.ne'
    field_simp
    ring
  have hH : ct * (st.betad - tau) + sl * (c * st.betadd) = 0 := by
    have : rt * (ct * (st.betad - tau) + sl * (c * st.betadd)) = 0 := by
      linear_combination (st.betad - tau) * t.ct_rt + h.E + c * st.betadd * t.sl_rt + st.sbar * st.betadd * t.c_rho
    exact (mul_eq_zero.1 this).resolve_left t.rt0
  have hqinv : qt = c • q + -s • qt' := by
    rw [hq, hqt']
    funext i
    simp only [Pi.add_apply, Pi.smul_apply, smul_eq_mul]
    linear_combination -(qt i) * t.rot
  have hres : b - A0 *ᵥ st'.x = (st'.betad - taud) • y' + st'.betadd • qt' := by
    have e : b - A0 *ᵥ st'.x = (b - A0 *ᵥ st.x) - (st'.zeta / st'.rhodold) • y' := by
      have e1 : (st'.zeta / (st'.rho * st'.rhobar)) • A0 *ᵥ st'.hbar = (st'.zeta / st'.rhodold) • y' := by
        have e2 : y' = (st'.rhodold / (st'.rho * st'.rhobar)) • A0 *ᵥ st'.hbar := by
          rw [div_eq_inv_mul, ← smul_smul, hAhbar, smul_smul, inv_mul_cancel₀ t.rr, one_smul]
        rw [e2, smul_smul]
        congr 1
        have := t.rhodold0
        have := t.rr
        field_simp
      rw [t.x, Matrix.mulVec_add, Matrix.mulVec_smul, e1]
      abel
    have e3 : st'.zeta / st'.rhodold = taud + sl * tau := by
      rw [div_eq_iff t.rhodold0]; linear_combination -htd
    rw [e, h.res, e3, t.betad, t.betadd]
    have e4 : st.betadd • qt = (c * st.betadd) • q + (-s * st.betadd) • qt' := by
      conv_lhs => rw [hqinv]
      rw [smul_add, smul_smul, smul_smul, mul_comm st.betadd, mul_comm st.betadd]
    rw [e4, hy']
    funext i
    simp only [Pi.add_apply, Pi.sub_apply, Pi.smul_apply, smul_eq_mul]
    linear_combination (ct * y i + sl * q i) * hH - (y i * (st.betad - tau) + q i * (c * st.betadd)) * t.rott
  -- the unit vectors of the residual
  have yu : y ⬝ᵥ st'.u = 0 := by
    by_cases hb : st'.beta = 0
    · rw [(hbz hb).2.2]; simp
    · have e1 : y ⬝ᵥ A0 *ᵥ st.v = st.alpha * (y ⬝ᵥ st.u) := by rw [← dot_transpose]; exact h.y_live.2
      rw [hAv, dotProduct_add, dotProduct_smul, dotProduct_smul, smul_eq_mul, smul_eq_mul] at e1
      have : st'.beta * (y ⬝ᵥ st'.u) = 0 := by linear_combination e1
      exact (mul_eq_zero.1 this).resolve_left hb
  have qu : qt ⬝ᵥ st'.u = 0 := by
    by_cases hb : st'.beta = 0
    · rw [(hbz hb).2.2]; simp
    · have e1 : qt ⬝ᵥ A0 *ᵥ st.v = st.alpha * (qt ⬝ᵥ st.u) := by rw [← dot_transpose]; exact h.qt_live
      rw [hAv, dotProduct_add, dotProduct_smul, dotProduct_smul, smul_eq_mul, smul_eq_mul] at e1
      have : st'.beta * (qt ⬝ᵥ st'.u) = 0 := by linear_combination e1
      exact (mul_eq_zero.1 this).resolve_left hb
  have suu : s * (st'.u ⬝ᵥ st'.u) = s := by
    by_cases hb : st'.beta = 0
    · rw [s0 hb]; simp
    · rw [(hbne hb).1, mul_one]
  have qqn : q ⬝ᵥ q = 1 := by
    rw [hq, rot_dot qu, h.qq]
    linear_combination t.rot + s * suu
  have yqn : y ⬝ᵥ q = 0 := by rw [hq, dotProduct_add, dotProduct_smul, dotProduct_smul, yu, h.yq]; simp
  have slz : st.sbar = 0 → sl = 0 := by
    intro h0
    have := t.sl_rt
    rw [h0, zero_mul] at this
    exact (mul_eq_zero.1 this).resolve_right t.rt0
  have syy : sl * (y ⬝ᵥ y) = sl := by
    rcases h.yy with h1 | h1
    · rw [h1, mul_one]
    · rw [slz h1, zero_mul]
  have yyn : y' ⬝ᵥ y' = 1 := by
    rw [hy', rot_dot yqn, qqn]
    linear_combination t.rott + sl * syy
  have sqq : s * (q ⬝ᵥ qt') = 0 := by
    rw [hq, hqt', rot_dot qu, h.qq]
    linear_combination s * c * suu
  have syq : s * (y' ⬝ᵥ qt') = 0 := by
    have e1 : y ⬝ᵥ qt' = 0 := by rw [hqt', dotProduct_add, dotProduct_smul, dotProduct_smul, yu, h.yq]; simp
    rw [hy', add_dotProduct, smul_dotProduct, smul_dotProduct, e1, smul_eq_mul, smul_eq_mul]
    linear_combination ct * sqq
  have sqt : s * (qt' ⬝ᵥ qt') = s := by
    rw [hqt', rot_dot qu, h.qq]
    linear_combination s * t.rot + c * c * suu
  have hnr : st'.normr * st'.normr = normSq (b - A0 *ᵥ st'.x) := by
    rw [t.normr.2, t.d, h.d0, hres, normSq_eq]
    have e1 : qt' ⬝ᵥ y' = y' ⬝ᵥ qt' := dotProduct_comm _ _
    simp only [add_dotProduct, dotProduct_add, smul_dotProduct, dotProduct_smul, smul_eq_mul, yyn, e1, t.betadd]
    linear_combination (2 * (st'.betad - taud) * st.betadd) * syq - s * st.betadd * st.betadd * sqt
  have hle : |st'.zetabar| ≤ |st.zetabar| := by
    rw [t.zetabar, abs_mul, abs_neg]
    refine mul_le_of_le_one_left (abs_nonneg _) ?_
    rw [abs_le_one_iff_mul_self_le_one]
    linarith [mul_self_nonneg st'.cbar, t.rotb]
  by_cases hdead : s * st'.alpha = 0
  · have hzb := dead hdead
    refine ⟨⟨by rw [t.itn]; exact x_mem, by rw [t.itn]; exact h.rank_succ, hnr, ?_, ?_⟩, hle, .inl hzb⟩
    · rw [t.normar, hgrad, hzb]; simp [normSq]
    · intro p _
      rw [hgrad, hzb]; simp
  have sne : s ≠ 0 := fun h0 => hdead (by rw [h0, zero_mul])
  have ane : st'.alpha ≠ 0 := fun h0 => hdead (by rw [h0, mul_zero])
  have bne : st'.beta ≠ 0 := fun h0 => sne (s0 h0)
  obtain ⟨huu, ha0, hAu', hvv⟩ := hbne bne
  have hvv := hvv ane
  have apos : 0 < st'.alpha := lt_of_le_of_ne ha0 (Ne.symm ane)
  obtain ⟨hMv, perp2, v_mem, next2, three2⟩ := lsmr_lanczos h hAv huu hAu' bne ane hvv
  have zv : z ⬝ᵥ st'.v = 0 := perp2 _ z_mem
  have zzn : z' ⬝ᵥ z' = 1 := by
    rw [hz', rot_dot zv, h.zz, hvv]
    linear_combination t.rotb
  have optn : ∀ p ∈ krylov (A0ᵀ * A0) (A0ᵀ *ᵥ b) (st.itn + 1), z' ⬝ᵥ (A0ᵀ * A0) *ᵥ p = 0 := by
    intro p hp
    obtain ⟨p1, hp1, r, hr, rfl⟩ := Submodule.mem_sup.1 (h.next hp)
    obtain ⟨a, rfl⟩ := Submodule.mem_span_singleton.1 hr
    obtain ⟨p2, hp2⟩ : ∃ p2, p2 = p1 + a • ((st.sbar * st'.rho * st'.rho / (st.rho * st.rhobar)) • st.hbar - (st.h - st.v)) := ⟨_, rfl⟩
    have hp2m : p2 ∈ krylov (A0ᵀ * A0) (A0ᵀ *ᵥ b) st.itn := by
      rw [hp2]
      exact Submodule.add_mem _ hp1 (Submodule.smul_mem _ _ (Submodule.sub_mem _ (Submodule.smul_mem _ _ h.hbar_mem) h.hv_mem))
    have e0 : p1 + a • st.v = p2 + a • st'.hbar := by rw [hp2, t.hbar]; module
    have e1 := h.opt p2 hp2m
    have e2 : st'.v ⬝ᵥ (A0ᵀ * A0) *ᵥ p2 = 0 := by rw [dotProduct_comm]; exact perp2 _ (krylov_succ_mem hp2m)
    have e3 : z' ⬝ᵥ (A0ᵀ * A0) *ᵥ st'.hbar = 0 := by
      rw [hMhbar, dotProduct_smul, hz', rot_dot zv, h.zz, hvv]
      simp only [smul_eq_mul]; ring
    rw [e0, Matrix.mulVec_add, Matrix.mulVec_smul, dotProduct_add, dotProduct_smul, e3, hz', add_dotProduct, smul_dotProduct, smul_dotProduct, e1, e2]
    simp
  refine ⟨⟨by rw [t.itn]; exact x_mem, by rw [t.itn]; exact h.rank_succ, hnr, ?_, ?_⟩, hle, .inr ⟨z', qt', y', ?_⟩⟩
  · rw [t.normar, hgrad, normSq_eq, smul_dotProduct, dotProduct_smul, zzn, abs_mul_abs_self]; simp
  · intro p hp
    rw [t.itn] at hp
    rw [hgrad, smul_dotProduct, optn p hp]; simp
  have hAqt : A0ᵀ *ᵥ qt' = st'.alphabar • st'.v := by
    rw [hqt', Matrix.mulVec_add, Matrix.mulVec_smul, Matrix.mulVec_smul, h.qt_eq, hAu', t.abar, ← t.c_rho, ← t.s_rho]
    module
  have hub : st'.u ⬝ᵥ st'.u = 1 := huu
  have cbarp : 0 < st'.cbar := by
    have : 0 < st'.cbar * st'.rhobar := by rw [t.cb]; exact mul_pos h.cbar_pos rhop
    exact pos_of_mul_pos_left this t.rhobar_nonneg
  constructor
  · exact apos
  · rw [t.abar]; exact mul_pos cpos apos
  · exact rhop
  · exact rhobarp
  · exact cbarp
  · rw [t.rhodold]; exact mul_pos ctrt rhobarp
  · rw [t.betadd]; exact mul_ne_zero (neg_ne_zero.2 sne) h.bdd0
  · exact hub
  · exact hvv
  · exact hAu'
  · rw [t.itn]; exact h.v_mem
  · rw [t.itn]; exact z_mem
  · rw [t.itn]; exact hbar_mem
  · rw [t.itn]; exact x_mem
  · rw [t.itn, t.h]
    have e : st'.v - (s * st'.alpha / st'.rho) • st.h - st'.v = -((s * st'.alpha / st'.rho) • ((st.h - st.v) + st.v)) := by rw [sub_add_cancel]; abel
    rw [e]
    exact Submodule.neg_mem _ (Submodule.smul_mem _ _ (Submodule.add_mem _ (krylov_mono (Nat.le_succ _) h.hv_mem) h.v_mem))
  · rw [t.itn]; exact v_mem
  · rw [t.itn]; exact next2
  · rw [t.itn]; exact perp2
  · rw [t.itn]; exact three2
  · rw [t.itn]; exact h.rank_succ
  · exact hAqt
  · rw [t.h, sub_sub_cancel_left, Matrix.mulVec_neg, Matrix.mulVec_smul, hAh, smul_smul, div_mul_cancel₀ _ rho0, t.abar, hqt', hq]
    funext i
    simp only [Pi.add_apply, Pi.sub_apply, Pi.smul_apply, Pi.neg_apply, smul_eq_mul]
    linear_combination -(st'.alpha * st'.u i) * t.rot
  · exact hMhbar
  · exact hz'
  · exact t.rotb
  · exact hgrad
  · exact zzn
  · rw [t.itn]; exact optn
  · exact hAhbar
  · exact t.taud_eq
  · exact hres
  · -- the last component
    have e1 : st'.rhodold * (st'.betad - taud) = st'.rhobar * (c * st.betadd) - st'.zeta := by
      rw [t.betad, mul_sub, mul_comm _ taud, htd, t.rhodold]
      linear_combination (-(sl * st'.rhobar)) * hH + st'.rhobar * (c * st.betadd) * t.rott
    rw [e1, t.zeta, h.F, t.betadd, t.abar, ← t.c_rho]
    linear_combination (-(c * st.betadd * st'.rhobar)) * t.rotb + c * st.betadd * st'.sbar * t.sb + (st'.cbar * c * st.betadd) * t.cb
  · rw [t.zetabar, h.F, t.abar, t.betadd, ← t.c_rho]
    linear_combination (c * st.betadd * st'.sbar) * t.cb - (c * st.betadd * st'.cbar) * t.sb
  · exact (mul_eq_zero.1 syq).resolve_left sne
  · exact mul_left_cancel₀ sne (by rw [sqt, mul_one])
  · exact .inl yyn
  · rw [t.d]; exact h.d0
  · rw [hAqt, smul_dotProduct, hvv, t.abar, hqt', add_dotProduct, smul_dotProduct, smul_dotProduct, qu, huu]
    simp [mul_comm]
  · have m1 : A0ᵀ *ᵥ y ∈ krylov (A0ᵀ * A0) (A0ᵀ *ᵥ b) (st.itn + 1) := h.y_live.1
    have e1 : A0ᵀ *ᵥ y ⬝ᵥ st'.v = 0 := perp2 _ m1
    rw [t.itn, hy', Matrix.mulVec_add, Matrix.mulVec_smul, Matrix.mulVec_smul, hAq]
    refine ⟨Submodule.add_mem _ (Submodule.smul_mem _ _ (krylov_mono (Nat.le_succ _) m1)) (Submodule.smul_mem _ _ (Submodule.add_mem _
      (Submodule.smul_mem _ _ (krylov_mono (Nat.le_succ _) h.v_mem)) (Submodule.smul_mem _ _ v_mem))), ?_⟩
    have vv' : st.v ⬝ᵥ st'.v = 0 := perp2 _ h.v_mem
    simp only [add_dotProduct, smul_dotProduct, smul_eq_mul, e1, vv', hvv, hq, yu, qu, huu]
    ring

end Verif
