import Verif.Props.LsmrSol
/-
C62: LSMR returns. C63: a step from a point with zero gradient.
-/
set_option autoImplicit false
namespace Verif
variable {m n : Nat}
open Matrix

theorem pyDiv_total {α : Type} [Field α] [LinearOrder α] {a b : α} (h : b ≠ 0) : pyDiv a b = .ok (a / b) := by unfold pyDiv; rw [if_neg h]

theorem symOrtho_total (a b : ℝ) : ∃ c s r, symOrtho realSqrt a b = .ok (c, s, r) := by
  have sg : ∀ x : ℝ, signOf x ≠ 0 := fun x => by unfold signOf; split_ifs <;> norm_num
  have main : ∀ p o : ℝ, p ≠ 0 → Real.sqrt (1 + o / p * (o / p)) ≠ 0 ∧ signOf p / Real.sqrt (1 + o / p * (o / p)) ≠ 0 := by
    intro p o hp
    have : 0 < Real.sqrt (1 + o / p * (o / p)) := Real.sqrt_pos.2 (by have := mul_self_nonneg (o / p); linarith)
    exact ⟨this.ne', div_ne_zero (sg p) this.ne'⟩
  have sq : ∀ p o : ℝ, realSqrt (1 + o / p * (o / p)) = .ok (Real.sqrt (1 + o / p * (o / p))) := fun p o =>
    realSqrt_ok (by have := mul_self_nonneg (o / p); linarith)
  unfold symOrtho
  by_cases hb : b = 0
  · rw [if_pos hb]; exact ⟨_, _, _, rfl⟩
  rw [if_neg hb]
  by_cases ha : a = 0
  · rw [if_pos ha]; exact ⟨_, _, _, rfl⟩
  rw [if_neg ha]
  by_cases hab : |a| < |b|
  · rw [if_pos hab]
    exact ⟨_, _, _, bind_ok.2 ⟨_, pyDiv_total hb, bind_ok.2 ⟨_, sq b a, bind_ok.2 ⟨_, pyDiv_total (main b a hb).1, bind_ok.2 ⟨_, pyDiv_total (main b a hb).2, rfl⟩⟩⟩⟩⟩
  · rw [if_neg hab]
    exact ⟨_, _, _, bind_ok.2 ⟨_, pyDiv_total ha, bind_ok.2 ⟨_, sq a b, bind_ok.2 ⟨_, pyDiv_total (main a b ha).1, bind_ok.2 ⟨_, pyDiv_total (main a b ha).2, rfl⟩⟩⟩⟩⟩

theorem bidiag_total {A0 : Matrix (Fin m) (Fin n) ℝ} {A : (Fin n → ℝ) → Py (Fin m → ℝ)} {AH : (Fin m → ℝ) → Py (Fin n → ℝ)}
    (hA : ∀ v, A v = .ok (A0 *ᵥ v)) (hAH : ∀ u, AH u = .ok (A0ᵀ *ᵥ u)) (st : LsmrState ℝ m n) : ∃ bi, st.bidiag realSqrt A AH = .ok bi := by
  unfold LsmrState.bidiag
  rw [hA]
  have e := realSqrt_ok (normSq_nonneg (A0 *ᵥ st.v - st.alpha • st.u))
  by_cases hb : 0 < Real.sqrt (normSq (A0 *ᵥ st.v - st.alpha • st.u))
  · exact ⟨_, bind_ok.2 ⟨_, rfl, bind_ok.2 ⟨_, e, by
      rw [if_pos hb]
      exact bind_ok.2 ⟨_, hAH _, bind_ok.2 ⟨_, realSqrt_ok (normSq_nonneg _), rfl⟩⟩⟩⟩⟩
  · exact ⟨_, bind_ok.2 ⟨_, rfl, bind_ok.2 ⟨_, e, by rw [if_neg hb]; rfl⟩⟩⟩

theorem lsmrDirectError_total (opts : LsmrOpts ℝ) (istop itn : Nat) (dErr : List ℝ) {x : ℝ} (hx : 0 ≤ x) :
    ∃ i, LsmrState.directError opts realSqrt istop itn dErr x = .ok i := by
  unfold LsmrState.directError
  split_ifs
  · exact ⟨_, bind_ok.2 ⟨_, realSqrt_ok (sumSq_nonneg _), bind_ok.2 ⟨_, realSqrt_ok hx, rfl⟩⟩⟩
  · exact ⟨_, rfl⟩

/-- A turn returns, unless it finds an exact solution. -/
theorem lsmrTurn_total {A0 : Matrix (Fin m) (Fin n) ℝ} {b : Fin m → ℝ} (hb : ∀ y, A0 *ᵥ y ≠ b) {opts : LsmrOpts ℝ} (hd : opts.damp = 0)
    {A : (Fin n → ℝ) → Py (Fin m → ℝ)} {AH : (Fin m → ℝ) → Py (Fin n → ℝ)} (hA : ∀ v, A v = .ok (A0 *ᵥ v)) (hAH : ∀ u, AH u = .ok (A0ᵀ *ᵥ u))
    {normb : ℝ} (hnb : 0 < normb) (ctol : ℝ) {st : LsmrState ℝ m n} (h : LsmrLive A0 b st) : ∃ st', st.turn opts realSqrt A AH normb ctol = .ok st' := by
  obtain ⟨v0, z0, z, qt, y, tau, hi⟩ := h.inv
  obtain ⟨bi, h1⟩ := bidiag_total hA hAH st
  have h2 : symOrtho realSqrt st.alphabar opts.damp = .ok (1, 0, st.alphabar) := by
    unfold symOrtho
    rw [if_pos hd, (signOf_mul _).2.2.2 hi.abar_pos.le, abs_of_nonneg hi.abar_pos.le]; rfl
  obtain ⟨c, s, rho, h3⟩ := symOrtho_total st.alphabar bi.beta
  obtain ⟨g1, g2, g3, g4, _⟩ := symOrtho_ok realSqrt_spec h3
  have rho0 : rho ≠ 0 := fun h0 => hi.abar_pos.ne' (by rw [← g2, h0, mul_zero])
  have rhop : 0 < rho := lt_of_le_of_ne g4 (Ne.symm rho0)
  obtain ⟨cbar, sbar, rhobar, h4⟩ := symOrtho_total (st.cbar * rho) (s * bi.alpha)
  obtain ⟨_, b2, _, b4, _⟩ := symOrtho_ok realSqrt_spec h4
  have rhot : 0 < st.cbar * rho := mul_pos hi.cbar_pos rhop
  have rhobar0 : rhobar ≠ 0 := fun h0 => rhot.ne' (by rw [← b2, h0, mul_zero])
  have hrr : st.rho * st.rhobar ≠ 0 := (mul_pos hi.rho_pos hi.rhobar_pos).ne'
  have p6 : rho * rhobar ≠ 0 := mul_ne_zero rho0 rhobar0
  have hX : 0 ≤ st.xNrgNorm2 + cbar * st.zetabar * (cbar * st.zetabar) := add_nonneg h.nX (mul_self_nonneg _)
  obtain ⟨i8, h8⟩ := lsmrDirectError_total opts st.istop (st.itn + 1) (st.dErr.set ((st.itn + 1) % opts.window) (cbar * st.zetabar)) hX
  obtain ⟨ct, sl, rt, h9⟩ := symOrtho_total st.rhodold (st.sbar * rho)
  obtain ⟨_, t2, _, t4, _⟩ := symOrtho_ok realSqrt_spec h9
  have p10 : rt ≠ 0 := fun h0 => hi.rhod_pos.ne' (by rw [← t2, h0, mul_zero])
  have ct0 : ct ≠ 0 := fun h0 => hi.rhod_pos.ne' (by rw [← t2, h0, zero_mul])
  have p11 : ct * rhobar ≠ 0 := mul_ne_zero ct0 rhobar0
  obtain ⟨td, e11⟩ : ∃ td, td = (cbar * st.zetabar - sl * rhobar * ((st.zeta - st.thetatilde * st.tautildeold) / rt)) / (ct * rhobar) := ⟨_, rfl⟩
  have h11 := pyDiv_total (a := cbar * st.zetabar - sl * rhobar * ((st.zeta - st.thetatilde * st.tautildeold) / rt)) p11
  rw [← e11] at h11
  have hrad : 0 ≤ st.d + -0 * st.betadd * (-0 * st.betadd) + (-sl * st.betad + ct * (c * (1 * st.betadd)) - td) ^ 2 + -s * (1 * st.betadd) * (-s * (1 * st.betadd)) := by
    rw [hi.d0]
    have := sq_nonneg (-sl * st.betad + ct * (c * (1 * st.betadd)) - td)
    have := mul_self_nonneg (-s * (1 * st.betadd))
    linarith
  have h12 := realSqrt_ok hrad
  have hA2 : 0 < st.normA2 + bi.beta * bi.beta := by have := h.nA; have := mul_self_nonneg bi.beta; linarith
  have h13 := realSqrt_ok hA2.le
  have nAp := Real.sqrt_pos.2 hA2
  obtain ⟨hbar, ehb⟩ : ∃ hbar, hbar = st.h - (st.sbar * rho * rho / (st.rho * st.rhobar)) • st.hbar := ⟨_, rfl⟩
  have h15 := realSqrt_ok (normSq_nonneg (st.x + (cbar * st.zetabar / (rho * rhobar)) • hbar))
  have minr : 0 < (if 1 < st.itn + 1 then min st.minrbar st.rhobar else st.minrbar) := by
    split_ifs
    · exact lt_min h.minr hi.rhobar_pos
    · exact h.minr
  obtain ⟨condA, ecA⟩ : ∃ condA, condA = max (max st.maxrbar st.rhobar) (st.cbar * rho) /
    min (if 1 < st.itn + 1 then min st.minrbar st.rhobar else st.minrbar) (st.cbar * rho) := ⟨_, rfl⟩
  have cA : 0 < condA := by rw [ecA]; exact div_pos (lt_max_of_lt_right rhot) (lt_min minr rhot)
  have h14 := pyDiv_total (a := max (max st.maxrbar st.rhobar) (st.cbar * rho)) (lt_min minr rhot).ne'
  rw [← ecA] at h14
  have core := lsmrCore_of (istop := 0) hd realSqrt_spec hi.abar_pos.le h1 h3 h4 p6 h9 p10 p11 e11 h12 h13 ehb h15 ecA
  obtain ⟨hpost, _⟩ := lsmr_step realSqrt_spec hA hAH hi core
  have hn := hpost.normr
  simp only at hn
  have nr0 : Real.sqrt (st.d + -0 * st.betadd * (-0 * st.betadd) + (-sl * st.betad + ct * (c * (1 * st.betadd)) - td) ^ 2 + -s * (1 * st.betadd) * (-s * (1 * st.betadd))) ≠ 0 := by
    intro h0
    rw [h0, mul_zero] at hn
    exact hb _ (sub_eq_zero.1 (normSq_zero hn.symm)).symm
  have ht : 1 + Real.sqrt (st.normA2 + bi.beta * bi.beta) * Real.sqrt (normSq (st.x + (cbar * st.zetabar / (rho * rhobar)) • hbar)) / normb ≠ 0 := by
    have : 0 ≤ Real.sqrt (st.normA2 + bi.beta * bi.beta) * Real.sqrt (normSq (st.x + (cbar * st.zetabar / (rho * rhobar)) • hbar)) / normb :=
      div_nonneg (mul_nonneg (Real.sqrt_nonneg _) (Real.sqrt_nonneg _)) hnb.le
    linarith
  subst ehb
  unfold LsmrState.turn
  exact ⟨_, bind_ok.2 ⟨_, h1, bind_ok.2 ⟨_, h2, bind_ok.2 ⟨_, h3, bind_ok.2 ⟨_, h4, bind_ok.2 ⟨_, pyDiv_total hrr, bind_ok.2 ⟨_, pyDiv_total p6,
    bind_ok.2 ⟨_, pyDiv_total rho0, bind_ok.2 ⟨_, h8, bind_ok.2 ⟨_, h9, bind_ok.2 ⟨_, pyDiv_total p10, bind_ok.2 ⟨_, h11, bind_ok.2 ⟨_, h12,
    bind_ok.2 ⟨_, h13, bind_ok.2 ⟨_, h14, bind_ok.2 ⟨_, h15, bind_ok.2 ⟨_, pyDiv_total hnb.ne', bind_ok.2 ⟨_, pyDiv_total (mul_ne_zero nAp.ne' nr0),
    bind_ok.2 ⟨_, pyDiv_total cA.ne', bind_ok.2 ⟨_, pyDiv_total hnb.ne', bind_ok.2 ⟨_, pyDiv_total ht, bind_ok.2 ⟨_, pyDiv_total hnb.ne', rfl⟩⟩⟩⟩⟩⟩⟩⟩⟩⟩⟩⟩⟩⟩⟩⟩⟩⟩⟩⟩⟩⟩

theorem lsmrLoop_total {A0 : Matrix (Fin m) (Fin n) ℝ} {b : Fin m → ℝ} (hb : ∀ y, A0 *ᵥ y ≠ b) {opts : LsmrOpts ℝ} (hd : opts.damp = 0)
    {A : (Fin n → ℝ) → Py (Fin m → ℝ)} {AH : (Fin m → ℝ) → Py (Fin n → ℝ)} (hA : ∀ v, A v = .ok (A0 *ᵥ v)) (hAH : ∀ u, AH u = .ok (A0ᵀ *ᵥ u))
    {normb : ℝ} (hnb : 0 < normb) : ∀ (k : Nat) {st : LsmrState ℝ m n}, LsmrLive A0 b st →
      ∃ st', Lsmr.loop opts realSqrt A AH normb (Lsmr.ctol opts) k st = .ok st'
  | 0, st, _ => ⟨st, rfl⟩
  | k + 1, st, h => by
    unfold Lsmr.loop
    by_cases hlt : st.itn < opts.itnlim
    · rw [if_pos hlt]
      obtain ⟨s1, h1⟩ := lsmrTurn_total hb hd hA hAH hnb (Lsmr.ctol opts) h
      obtain ⟨_, _, d3⟩ := turn_done hd realSqrt_spec hA hAH hnb hlt h h1
      by_cases hz : 0 < s1.istop
      · exact ⟨_, bind_ok.2 ⟨_, h1, by rw [if_pos hz]; rfl⟩⟩
      · obtain ⟨s2, h2⟩ := lsmrLoop_total hb hd hA hAH hnb k (d3 (by omega))
        exact ⟨_, bind_ok.2 ⟨_, h1, by rw [if_neg hz]; exact h2⟩⟩
    · rw [if_neg hlt]; exact ⟨st, rfl⟩

/-- **C62 (LSMR returns).** For real equations which no vector satisfies exactly, a solve without damping returns. If at least as many iterations as unknowns are allowed
and the tolerance is not negative, it does not stop at the limit. -/
theorem C62_lsmr_returns {A0 : Matrix (Fin m) (Fin n) ℝ} {b : Fin m → ℝ} (hb : ∀ y, A0 *ᵥ y ≠ b) {opts : LsmrOpts ℝ} (hd : opts.damp = 0) (hh : 0 < opts.huge)
    {A : (Fin n → ℝ) → Py (Fin m → ℝ)} {AH : (Fin m → ℝ) → Py (Fin n → ℝ)} (hA : ∀ v, A v = .ok (A0 *ᵥ v)) (hAH : ∀ u, AH u = .ok (A0ᵀ *ᵥ u))
    (held : Option (Fin n → ℝ)) :
    ∃ st x, Lsmr.solve opts realSqrt A AH b held = .ok (st, x) ∧ (n ≤ opts.itnlim → 0 ≤ opts.atol → st.istop ∈ [0, 1, 2, 3, 8] ∧ (st.istop = 0 → A0ᵀ *ᵥ b = 0)) := by
  have hbn : 0 < normSq b := by
    rcases (normSq_nonneg b).lt_or_eq with h | h
    · exact h
    · have : b = 0 := normSq_zero h.symm
      exact absurd (by rw [this, Matrix.mulVec_zero]) (hb 0)
  have hbeta := Real.sqrt_pos.2 hbn
  have hbeta' : 0 < Real.sqrt (b ⬝ᵥ b) := hbeta
  have hfirst : ∃ bi, Lsmr.first realSqrt AH b = .ok bi ∧ bi.beta = Real.sqrt (normSq b) := by
    unfold Lsmr.first
    exact ⟨_, bind_ok.2 ⟨_, realSqrt_ok hbn.le, by
      rw [if_pos hbeta']
      exact bind_ok.2 ⟨_, hAH _, bind_ok.2 ⟨_, realSqrt_ok (normSq_nonneg _), rfl⟩⟩⟩, rfl⟩
  obtain ⟨bi, h1, hbe⟩ := hfirst
  have h2 := realSqrt_ok (mul_self_nonneg bi.alpha)
  have hret : ∃ st x, Lsmr.solve opts realSqrt A AH b held = .ok (st, x) := by
    unfold Lsmr.solve
    by_cases h0 : bi.alpha * bi.beta = 0
    · refine ⟨Lsmr.start opts bi (Real.sqrt (bi.alpha * bi.alpha)), held, bind_ok.2 ⟨_, h1, bind_ok.2 ⟨_, h2, ?_⟩⟩⟩
      have h0' : (Lsmr.start opts bi (Real.sqrt (bi.alpha * bi.alpha))).normar = 0 := h0
      simp only [if_pos h0']
      rfl
    · obtain ⟨s1, h3⟩ := lsmrLoop_total hb hd hA hAH (normb := bi.beta) (by rw [hbe]; exact hbeta) opts.itnlim
        (start_live (normA := Real.sqrt (bi.alpha * bi.alpha)) hh realSqrt_spec hAH h1 h0)
      refine ⟨s1, some s1.x, bind_ok.2 ⟨_, h1, bind_ok.2 ⟨_, h2, ?_⟩⟩⟩
      have h0' : ¬ (Lsmr.start opts bi (Real.sqrt (bi.alpha * bi.alpha))).normar = 0 := h0
      simp only [if_neg h0']
      exact bind_ok.2 ⟨_, h3, rfl⟩
  obtain ⟨st, x, h⟩ := hret
  refine ⟨st, x, h, fun hlim hat => ?_⟩
  obtain ⟨c1, c2, c3, c4, ⟨_, _, _, c5⟩, c6⟩ := C38_lsmr hd hh realSqrt_spec hA hAH h
  obtain ⟨_, s2⟩ := C62_solution hd hh realSqrt_spec hA hAH h
  obtain ⟨_, d1, _⟩ := C62_lsmr hd hh realSqrt_spec hA hAH h
  have h7 : st.istop ≠ 7 := by
    intro h7
    have e := c5.2.2.2.1 h7
    have hn : st.itn = n := by omega
    have hpos : 1 ≤ st.itn := by
      by_contra h0
      have := c2.2 (by omega)
      omega
    rcases c6 (s2 hn) hat hpos with g | g <;> omega
  rcases c4 with c4 | c4
  · constructor
    · simp only [List.mem_cons, List.not_mem_nil, or_false] at c4 ⊢
      omega
    · intro h0
      rcases c3.1 (c2.1 h0) with g | g
      · exact g
      · have hn0 : n = 0 := by omega
        subst hn0
        funext i
        exact i.elim0
  · exact absurd c4.2 (not_lt.2 hat)

end Verif
