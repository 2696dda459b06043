import Verif.Lemmas.LsmrTurn
/-
LSMR: the invariant of the loop.
-/
set_option autoImplicit false
namespace Verif
variable {α : Type} [Field α] [LinearOrder α] [IsStrictOrderedRing α] {m n : Nat}
open Matrix

/-- What holds of the variables of the loop as long as the bidiagonalisation goes on. `v0` is the vector before `v`, `z` the direction of the gradient and `z0` the one
before, `y` and `qt` the two directions of the residual. -/
structure LsmrInv (A0 : Matrix (Fin m) (Fin n) α) (b : Fin m → α) (st : LsmrState α m n) (v0 z0 z : Fin n → α) (qt y : Fin m → α) (tau : α) : Prop where
  alpha_pos : 0 < st.alpha
  abar_pos : 0 < st.alphabar
  rho_pos : 0 < st.rho
  rhobar_pos : 0 < st.rhobar
  cbar_pos : 0 < st.cbar
  rhod_pos : 0 < st.rhodold
  bdd0 : st.betadd ≠ 0
  uu : st.u ⬝ᵥ st.u = 1
  vv : st.v ⬝ᵥ st.v = 1
  Atu : A0ᵀ *ᵥ st.u = st.beta • v0 + st.alpha • st.v
  v0_mem : v0 ∈ krylov (A0ᵀ * A0) (A0ᵀ *ᵥ b) st.itn
  z0_mem : z0 ∈ krylov (A0ᵀ * A0) (A0ᵀ *ᵥ b) st.itn
  hbar_mem : st.hbar ∈ krylov (A0ᵀ * A0) (A0ᵀ *ᵥ b) st.itn
  x_mem : st.x ∈ krylov (A0ᵀ * A0) (A0ᵀ *ᵥ b) st.itn
  hv_mem : st.h - st.v ∈ krylov (A0ᵀ * A0) (A0ᵀ *ᵥ b) st.itn
  v_mem : st.v ∈ krylov (A0ᵀ * A0) (A0ᵀ *ᵥ b) (st.itn + 1)
  next : krylov (A0ᵀ * A0) (A0ᵀ *ᵥ b) (st.itn + 1) ≤ krylov (A0ᵀ * A0) (A0ᵀ *ᵥ b) st.itn ⊔ Submodule.span α {st.v}
  perp : ∀ p ∈ krylov (A0ᵀ * A0) (A0ᵀ *ᵥ b) st.itn, p ⬝ᵥ st.v = 0
  three : ∀ p ∈ krylov (A0ᵀ * A0) (A0ᵀ *ᵥ b) st.itn, (A0ᵀ * A0) *ᵥ p ⬝ᵥ st.v = st.alpha * st.beta * (p ⬝ᵥ v0)
  rank : Module.finrank α (krylov (A0ᵀ * A0) (A0ᵀ *ᵥ b) st.itn) = st.itn
  qt_eq : A0ᵀ *ᵥ qt = st.alphabar • st.v
  hv_eq : A0 *ᵥ (st.h - st.v) = st.alphabar • qt - st.alpha • st.u
  MH : (A0ᵀ * A0) *ᵥ st.hbar = (st.rho * st.rhobar) • (st.cbar • z0 + st.sbar • st.v)
  z_eq : z = -st.sbar • z0 + st.cbar • st.v
  rotb : st.cbar * st.cbar + st.sbar * st.sbar = 1
  grad : A0ᵀ *ᵥ (b - A0 *ᵥ st.x) = st.zetabar • z
  zz : z ⬝ᵥ z = 1
  opt : ∀ p ∈ krylov (A0ᵀ * A0) (A0ᵀ *ᵥ b) st.itn, z ⬝ᵥ (A0ᵀ * A0) *ᵥ p = 0
  Ahbar : st.rhodold • A0 *ᵥ st.hbar = (st.rho * st.rhobar) • y
  tau_eq : tau * st.rhodold = st.zeta - st.thetatilde * st.tautildeold
  res : b - A0 *ᵥ st.x = (st.betad - tau) • y + st.betadd • qt
  E : st.rhodold * (st.betad - tau) = -st.sbar * st.betadd * st.alphabar
  F : st.zetabar = st.cbar * st.alphabar * st.betadd
  yq : y ⬝ᵥ qt = 0
  qq : qt ⬝ᵥ qt = 1
  yy : y ⬝ᵥ y = 1 ∨ st.sbar = 0
  d0 : st.d = 0
  qt_live : A0ᵀ *ᵥ qt ⬝ᵥ st.v = st.alpha * (qt ⬝ᵥ st.u)
  y_live : A0ᵀ *ᵥ y ∈ krylov (A0ᵀ * A0) (A0ᵀ *ᵥ b) (st.itn + 1) ∧ A0ᵀ *ᵥ y ⬝ᵥ st.v = st.alpha * (y ⬝ᵥ st.u)

/-- What holds of the iterate after every turn. -/
structure LsmrPost (A0 : Matrix (Fin m) (Fin n) α) (b : Fin m → α) (st : LsmrState α m n) : Prop where
  x_mem : st.x ∈ krylov (A0ᵀ * A0) (A0ᵀ *ᵥ b) st.itn
  rank : Module.finrank α (krylov (A0ᵀ * A0) (A0ᵀ *ᵥ b) st.itn) = st.itn
  normr : st.normr * st.normr = normSq (b - A0 *ᵥ st.x)
  normar : st.normar * st.normar = normSq (A0ᵀ *ᵥ (b - A0 *ᵥ st.x))
  opt : ∀ p ∈ krylov (A0ᵀ * A0) (A0ᵀ *ᵥ b) st.itn, A0ᵀ *ᵥ (b - A0 *ᵥ st.x) ⬝ᵥ (A0ᵀ * A0) *ᵥ p = 0

omit [LinearOrder α] [IsStrictOrderedRing α] in
theorem dot_transpose (A0 : Matrix (Fin m) (Fin n) α) (u : Fin m → α) (v : Fin n → α) : A0ᵀ *ᵥ u ⬝ᵥ v = u ⬝ᵥ A0 *ᵥ v := by
  rw [Matrix.mulVec_transpose, Matrix.dotProduct_mulVec]

/-- A step of the bidiagonalisation. -/
theorem bidiag_ok {A0 : Matrix (Fin m) (Fin n) α} {sqrt : α → Py α} (hs : IsSqrt sqrt) {A : (Fin n → α) → Py (Fin m → α)}
    {AH : (Fin m → α) → Py (Fin n → α)} (hA : ∀ v, A v = .ok (A0 *ᵥ v)) (hAH : ∀ u, AH u = .ok (A0ᵀ *ᵥ u)) {st : LsmrState α m n} {bi : Bidiag α m n}
    (h : st.bidiag sqrt A AH = .ok bi) : A0 *ᵥ st.v = st.alpha • st.u + bi.beta • bi.u ∧ 0 ≤ bi.beta ∧
      (bi.beta ≠ 0 → bi.u ⬝ᵥ bi.u = 1 ∧ 0 ≤ bi.alpha ∧ A0ᵀ *ᵥ bi.u = bi.beta • st.v + bi.alpha • bi.v ∧ (bi.alpha ≠ 0 → bi.v ⬝ᵥ bi.v = 1)) ∧
      (bi.beta = 0 → bi.v = st.v ∧ bi.alpha = st.alpha ∧ bi.u = 0) := by
  unfold LsmrState.bidiag at h
  obtain ⟨Av, h1, h⟩ := bind_ok.1 h
  rw [hA] at h1; cases h1
  obtain ⟨beta, h2, h⟩ := bind_ok.1 h
  obtain ⟨b0, bb⟩ := hs _ _ h2
  by_cases hb : 0 < beta
  · rw [if_pos hb] at h
    obtain ⟨Au, h3, h⟩ := bind_ok.1 h
    rw [hAH] at h3; cases h3
    obtain ⟨alpha, h4, h⟩ := bind_ok.1 h
    rw [pure_ok] at h
    obtain ⟨a0, aa⟩ := hs _ _ h4
    subst h
    have hn : normalised beta (A0 *ᵥ st.v - st.alpha • st.u) = (1 / beta) • (A0 *ᵥ st.v - st.alpha • st.u) := by unfold normalised; rw [if_pos hb]
    simp only
    rw [hn] at aa ⊢
    obtain ⟨u', hu'⟩ : ∃ u', u' = (1 / beta) • (A0 *ᵥ st.v - st.alpha • st.u) := ⟨_, rfl⟩
    rw [← hu'] at aa ⊢
    have hbu : beta • u' = A0 *ᵥ st.v - st.alpha • st.u := by rw [hu', smul_smul, mul_one_div_cancel hb.ne', one_smul]
    refine ⟨by rw [hbu]; abel, b0, fun _ => ⟨?_, a0, ?_, ?_⟩, fun h => absurd h hb.ne'⟩
    · rw [hu', smul_dotProduct, dotProduct_smul, ← bb]; simp only [smul_eq_mul]; field_simp
    · unfold normalised
      by_cases ha : 0 < alpha
      · rw [if_pos ha, smul_smul, mul_one_div_cancel ha.ne', one_smul]; abel
      · rw [if_neg ha]
        have ha0 : alpha = 0 := le_antisymm (not_lt.1 ha) a0
        rw [ha0, mul_zero] at aa
        have := normSq_zero aa.symm
        rw [ha0, zero_smul, add_zero, ← sub_eq_zero]
        exact this
    · intro ha
      have ha' : 0 < alpha := lt_of_le_of_ne a0 (Ne.symm ha)
      unfold normalised
      rw [if_pos ha', smul_dotProduct, dotProduct_smul, ← aa]; simp only [smul_eq_mul]; field_simp
  · rw [if_neg hb, pure_ok] at h
    subst h
    have hb0 : beta = 0 := le_antisymm (not_lt.1 hb) b0
    rw [hb0, mul_zero] at bb
    have hu := normSq_zero bb.symm
    refine ⟨?_, b0, fun h => absurd hb0 h, fun _ => ⟨rfl, rfl, hu⟩⟩
    simp only
    rw [hb0, zero_smul, add_zero, ← sub_eq_zero]; exact hu

section
variable {A0 : Matrix (Fin m) (Fin n) α} {b : Fin m → α} {st st' : LsmrState α m n} {v0 z0 z : Fin n → α} {qt y : Fin m → α} {tau : α}

omit [IsStrictOrderedRing α] in
theorem LsmrInv.K_eq (h : LsmrInv A0 b st v0 z0 z qt y tau) :
    krylov (A0ᵀ * A0) (A0ᵀ *ᵥ b) (st.itn + 1) = krylov (A0ᵀ * A0) (A0ᵀ *ᵥ b) st.itn ⊔ Submodule.span α {st.v} :=
  le_antisymm h.next (sup_le (krylov_mono (by omega)) (by rw [Submodule.span_singleton_le_iff_mem]; exact h.v_mem))

theorem LsmrInv.rank_succ (h : LsmrInv A0 b st v0 z0 z qt y tau) :
    Module.finrank α (krylov (A0ᵀ * A0) (A0ᵀ *ᵥ b) (st.itn + 1)) = st.itn + 1 := by
  have hv1 : st.v ≠ 0 := by intro h0; have := h.vv; rw [h0] at this; simp at this
  have hinf : krylov (A0ᵀ * A0) (A0ᵀ *ᵥ b) st.itn ⊓ Submodule.span α {st.v} = ⊥ := by
    rw [eq_bot_iff]
    rintro p ⟨hp, hp'⟩
    obtain ⟨c, rfl⟩ := Submodule.mem_span_singleton.1 hp'
    have := h.perp _ hp
    rw [smul_dotProduct, h.vv] at this
    simp at this
    rw [this, zero_smul]; exact Submodule.zero_mem _
  have e := Submodule.finrank_sup_add_finrank_inf_eq (krylov (A0ᵀ * A0) (A0ᵀ *ᵥ b) st.itn) (Submodule.span α {st.v})
  rw [hinf, finrank_bot, finrank_span_singleton hv1, h.rank, ← h.K_eq] at e
  omega

/-- The bidiagonalisation is the Lanczos process on the normal equations. -/
theorem lsmr_lanczos (h : LsmrInv A0 b st v0 z0 z qt y tau) (hAv : A0 *ᵥ st.v = st.alpha • st.u + st'.beta • st'.u) (huu : st'.u ⬝ᵥ st'.u = 1)
    (hAu : A0ᵀ *ᵥ st'.u = st'.beta • st.v + st'.alpha • st'.v) (hb : st'.beta ≠ 0) (ha : st'.alpha ≠ 0) (hvv : st'.v ⬝ᵥ st'.v = 1) :
    (A0ᵀ * A0) *ᵥ st.v = (st.alpha * st.beta) • v0 + (st.alpha * st.alpha + st'.beta * st'.beta) • st.v + (st'.alpha * st'.beta) • st'.v ∧
    (∀ p ∈ krylov (A0ᵀ * A0) (A0ᵀ *ᵥ b) (st.itn + 1), p ⬝ᵥ st'.v = 0) ∧ st'.v ∈ krylov (A0ᵀ * A0) (A0ᵀ *ᵥ b) (st.itn + 1 + 1) ∧
    krylov (A0ᵀ * A0) (A0ᵀ *ᵥ b) (st.itn + 1 + 1) ≤ krylov (A0ᵀ * A0) (A0ᵀ *ᵥ b) (st.itn + 1) ⊔ Submodule.span α {st'.v} ∧
    (∀ p ∈ krylov (A0ᵀ * A0) (A0ᵀ *ᵥ b) (st.itn + 1), (A0ᵀ * A0) *ᵥ p ⬝ᵥ st'.v = st'.alpha * st'.beta * (p ⬝ᵥ st.v)) := by
  have hab : st'.alpha * st'.beta ≠ 0 := mul_ne_zero ha hb
  have hMv : (A0ᵀ * A0) *ᵥ st.v = (st.alpha * st.beta) • v0 + (st.alpha * st.alpha + st'.beta * st'.beta) • st.v + (st'.alpha * st'.beta) • st'.v := by
    rw [← Matrix.mulVec_mulVec, hAv, Matrix.mulVec_add, Matrix.mulVec_smul, Matrix.mulVec_smul, h.Atu, hAu]
    module
  have hsym : (A0ᵀ * A0).IsSymm := by unfold Matrix.IsSymm; rw [Matrix.transpose_mul, Matrix.transpose_transpose]
  have v0v : v0 ⬝ᵥ st.v = 0 := h.perp _ h.v0_mem
  have vv0 : st.v ⬝ᵥ v0 = 0 := by rw [dotProduct_comm]; exact v0v
  -- the coefficient
  have e1 : st.u ⬝ᵥ A0 *ᵥ st.v = st.alpha := by
    rw [← dot_transpose, h.Atu, add_dotProduct, smul_dotProduct, smul_dotProduct, v0v, h.vv]; simp
  have e2 : st.u ⬝ᵥ st'.u = 0 := by
    rw [hAv, dotProduct_add, dotProduct_smul, dotProduct_smul, h.uu] at e1
    simp only [smul_eq_mul, mul_one] at e1
    have : st'.beta * (st.u ⬝ᵥ st'.u) = 0 := by linear_combination e1
    exact (mul_eq_zero.1 this).resolve_left hb
  have e3 : st.v ⬝ᵥ (A0ᵀ * A0) *ᵥ st.v = st.alpha * st.alpha + st'.beta * st'.beta := by
    rw [← Matrix.mulVec_mulVec, dotProduct_comm, dot_transpose, hAv]
    simp only [add_dotProduct, dotProduct_add, smul_dotProduct, dotProduct_smul, smul_eq_mul, h.uu, huu, e2]
    have e2' : st'.u ⬝ᵥ st.u = 0 := by rw [dotProduct_comm]; exact e2
    rw [e2']; ring
  have hy : (st'.alpha * st'.beta) • st'.v = ((A0ᵀ * A0) *ᵥ st.v - (st.alpha * st.beta) • v0) - (st.alpha * st.alpha + st'.beta * st'.beta) • st.v := by
    rw [hMv]; module
  have hco : st.alpha * st.alpha + st'.beta * st'.beta = st.v ⬝ᵥ ((A0ᵀ * A0) *ᵥ st.v - (st.alpha * st.beta) • v0) := by
    rw [dotProduct_sub, e3, dotProduct_smul, vv0]; simp
  have horth := lanczos_orth hsym h.perp h.three h.v0_mem h.vv hco hy
  have perp2 : ∀ p ∈ krylov (A0ᵀ * A0) (A0ᵀ *ᵥ b) (st.itn + 1), p ⬝ᵥ st'.v = 0 := by
    intro p hp
    have := horth p (h.K_eq ▸ hp)
    rw [dotProduct_smul, smul_eq_mul] at this
    exact (mul_eq_zero.1 this).resolve_left hab
  have v_mem : st'.v ∈ krylov (A0ᵀ * A0) (A0ᵀ *ᵥ b) (st.itn + 1 + 1) := by
    have : st'.v = (1 / (st'.alpha * st'.beta)) • ((st'.alpha * st'.beta) • st'.v) := by rw [smul_smul, one_div_mul_cancel hab, one_smul]
    rw [this, hy]
    exact Submodule.smul_mem _ _ (Submodule.sub_mem _ (Submodule.sub_mem _ (krylov_succ_mem h.v_mem) (Submodule.smul_mem _ _ (krylov_mono (by omega) h.v0_mem)))
        (Submodule.smul_mem _ _ (krylov_mono (by omega) h.v_mem)))
  have img : ∀ p ∈ krylov (A0ᵀ * A0) (A0ᵀ *ᵥ b) (st.itn + 1), (A0ᵀ * A0) *ᵥ p ∈ krylov (A0ᵀ * A0) (A0ᵀ *ᵥ b) (st.itn + 1) ⊔ Submodule.span α {st'.v} := by
    intro p hp
    obtain ⟨q, hq, r, hr, rfl⟩ := Submodule.mem_sup.1 (h.next hp)
    obtain ⟨c, rfl⟩ := Submodule.mem_span_singleton.1 hr
    rw [Matrix.mulVec_add, Matrix.mulVec_smul, hMv]
    refine Submodule.add_mem _ (Submodule.mem_sup_left (krylov_succ_mem hq)) (Submodule.smul_mem _ _ (Submodule.add_mem _ (Submodule.mem_sup_left ?_)
      (Submodule.mem_sup_right (Submodule.smul_mem _ _ (Submodule.mem_span_singleton_self _)))))
    exact Submodule.add_mem _ (Submodule.smul_mem _ _ (krylov_mono (Nat.le_succ _) h.v0_mem)) (Submodule.smul_mem _ _ h.v_mem)
  refine ⟨hMv, perp2, v_mem, ?_, ?_⟩
  · unfold krylov
    rw [Submodule.span_le]
    rintro _ ⟨j, hj, rfl⟩
    by_cases hj' : j < st.itn + 1
    · exact Submodule.mem_sup_left (Submodule.subset_span ⟨j, hj', rfl⟩)
    · obtain rfl : j = st.itn + 1 := by omega
      rw [pow_succ', ← Matrix.mulVec_mulVec]
      exact img _ (Submodule.subset_span ⟨st.itn, by omega, rfl⟩)
  · intro p hp
    obtain ⟨q, hq, r, hr, rfl⟩ := Submodule.mem_sup.1 (h.next hp)
    obtain ⟨c, rfl⟩ := Submodule.mem_span_singleton.1 hr
    have f1 : (A0ᵀ * A0) *ᵥ q ⬝ᵥ st'.v = 0 := perp2 _ (krylov_succ_mem hq)
    have f2 := h.perp q hq
    have f3 : (A0ᵀ * A0) *ᵥ st.v ⬝ᵥ st'.v = st'.alpha * st'.beta := by
      rw [hMv]
      simp only [add_dotProduct, smul_dotProduct, perp2 _ (krylov_mono (Nat.le_succ _) h.v0_mem), perp2 _ h.v_mem, hvv]
      simp
    rw [Matrix.mulVec_add, Matrix.mulVec_smul, add_dotProduct, smul_dotProduct, f1, f3, add_dotProduct, smul_dotProduct, f2, h.vv]
    simp [mul_comm]

end

end Verif
