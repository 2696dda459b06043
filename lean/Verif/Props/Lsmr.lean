import Verif.Lemmas.LsmrStep
import Verif.Props.MinresCase
/-
C38, C62: LSMR.
-/
set_option autoImplicit false
namespace Verif
variable {α : Type} [Field α] [LinearOrder α] [IsStrictOrderedRing α] {m n : Nat}
open Matrix

theorem lsmrVerdict_spec (opts : LsmrOpts α) (istop itn : Nat) (test1 test2 test3 t1 rtol ctol : α) (v : Nat)
    (h : v = lsmrVerdict opts istop itn test1 test2 test3 t1 rtol ctol) :
    (v = 1 ∧ test1 ≤ rtol) ∨ (v = 2 ∧ test2 ≤ opts.atol) ∨ (v = 3 ∧ test3 ≤ ctol) ∨ (v = 4 ∧ t1 ≤ 0) ∨
      (v = 5 ∧ test2 ≤ 0 ∧ opts.atol < test2) ∨ (v = 6 ∧ test3 ≤ 0) ∨ (v = 7 ∧ opts.itnlim ≤ itn ∧ opts.atol < test2) ∨
      (v = istop ∧ itn < opts.itnlim ∧ 0 < test2) := by
  unfold lsmrVerdict at h
  have e : ∀ x : α, 1 + x ≤ 1 ↔ x ≤ 0 := fun x => by constructor <;> intro h <;> linarith
  simp only [e] at h
  by_cases h1 : test1 ≤ rtol
  · rw [if_pos h1] at h; exact .inl ⟨h, h1⟩
  rw [if_neg h1] at h
  by_cases h2 : test2 ≤ opts.atol
  · rw [if_pos h2] at h; exact .inr (.inl ⟨h, h2⟩)
  rw [if_neg h2] at h
  by_cases h3 : test3 ≤ ctol
  · rw [if_pos h3] at h; exact .inr (.inr (.inl ⟨h, h3⟩))
  rw [if_neg h3] at h
  by_cases h4 : t1 ≤ 0
  · rw [if_pos h4] at h; exact .inr (.inr (.inr (.inl ⟨h, h4⟩)))
  rw [if_neg h4] at h
  by_cases h5 : test2 ≤ 0
  · rw [if_pos h5] at h; exact .inr (.inr (.inr (.inr (.inl ⟨h, h5, not_le.1 h2⟩))))
  rw [if_neg h5] at h
  by_cases h6 : test3 ≤ 0
  · rw [if_pos h6] at h; exact .inr (.inr (.inr (.inr (.inr (.inl ⟨h, h6⟩)))))
  rw [if_neg h6] at h
  by_cases h7 : opts.itnlim ≤ itn
  · rw [if_pos h7] at h; exact .inr (.inr (.inr (.inr (.inr (.inr (.inl ⟨h, h7, not_le.1 h2⟩))))))
  · rw [if_neg h7] at h; exact .inr (.inr (.inr (.inr (.inr (.inr (.inr ⟨h, by omega, not_le.1 h5⟩))))))

/-- The parts of a state at which the loop may continue. -/
structure LsmrLive (A0 : Matrix (Fin m) (Fin n) α) (b : Fin m → α) (st : LsmrState α m n) : Prop where
  istop : st.istop = 0
  inv : ∃ v0 z0 z qt y tau, LsmrInv A0 b st v0 z0 z qt y tau
  maxr : 0 ≤ st.maxrbar
  minr : 0 < st.minrbar
  nA : 0 < st.normA2
  nx : 0 ≤ st.normx ∧ st.normx * st.normx = st.x ⬝ᵥ st.x
  nr : 0 ≤ st.normr
  nar : 0 ≤ st.normar
  nX : 0 ≤ st.xNrgNorm2

/-- What holds of a state after a turn. -/
structure LsmrDone (opts : LsmrOpts α) (A0 : Matrix (Fin m) (Fin n) α) (b : Fin m → α) (normb : α) (st : LsmrState α m n) : Prop where
  post : LsmrPost A0 b st
  nx : 0 ≤ st.normx ∧ st.normx * st.normx = st.x ⬝ᵥ st.x
  nr : 0 < st.normr
  nar : 0 ≤ st.normar
  code : st.CodeTrue opts normb
  codes : st.istop = 0 ∧ st.itn < opts.itnlim ∨ st.istop ∈ [1, 2, 3, 7, 8] ∨ st.istop = 5 ∧ opts.atol < 0
  zero : st.normar = 0 → 0 ≤ opts.atol → st.istop = 1 ∨ st.istop = 2

theorem turn_done {A0 : Matrix (Fin m) (Fin n) α} {b : Fin m → α} {opts : LsmrOpts α} (hd : opts.damp = 0) {sqrt : α → Py α} (hs : IsSqrt sqrt)
    {A : (Fin n → α) → Py (Fin m → α)} {AH : (Fin m → α) → Py (Fin n → α)} (hA : ∀ v, A v = .ok (A0 *ᵥ v)) (hAH : ∀ u, AH u = .ok (A0ᵀ *ᵥ u))
    {normb : α} (hb : 0 < normb) {st st' : LsmrState α m n} (hlt : st.itn < opts.itnlim) (h : LsmrLive A0 b st)
    (ht : st.turn opts sqrt A AH normb (Lsmr.ctol opts) = .ok st') :
    LsmrDone opts A0 b normb st' ∧ st'.itn = st.itn + 1 ∧ (st'.istop = 0 → LsmrLive A0 b st') := by
  obtain ⟨v0, z0, z, qt, y, tau, hi⟩ := h.inv
  obtain ⟨c, s, ct, sl, rt, taud, t⟩ := lsmrTurn_ok hd hs hi.abar_pos.le ht
  obtain ⟨hpost, _, hlive⟩ := lsmr_step hs hA hAH hi t.toLsmrCore
  have rhop : 0 < st'.rho := lt_of_le_of_ne t.rho_nonneg (fun h0 => t.rr (by rw [← h0, zero_mul]))
  have rhot : 0 < st.cbar * st'.rho := mul_pos hi.cbar_pos rhop
  have nAp : 0 < st'.normA := lt_of_le_of_ne t.normA.1 (fun h0 => t.normr0 (by rw [← h0, zero_mul]))
  have nrp : 0 < st'.normr := lt_of_le_of_ne t.normr.1 (fun h0 => t.normr0 (by rw [← h0, mul_zero]))
  have nar0 : 0 ≤ st'.normar := by rw [t.normar]; exact abs_nonneg _
  have maxr : 0 ≤ st'.maxrbar := by rw [t.maxrbar]; exact le_max_of_le_left h.maxr
  have minr : 0 < st'.minrbar := by
    rw [t.minrbar]
    split_ifs
    · exact lt_min h.minr hi.rhobar_pos
    · exact h.minr
  have cA : 0 < st'.condA := by rw [t.condA]; exact div_pos (lt_max_of_lt_right rhot) (lt_min minr rhot)
  obtain ⟨i8, h8, hst⟩ := t.stop
  have h8' : (i8 = 0) ∨ (i8 = 8 ∧ opts.window < st'.itn ∧ ∃ t e, 0 ≤ t ∧ t * t = sumSq st'.dErr ∧ 0 ≤ e ∧ e * e = st'.xNrgNorm2 ∧ t < opts.etol * e) := by
    unfold LsmrState.directError at h8
    by_cases hw : opts.window < st'.itn
    · rw [if_pos hw] at h8
      obtain ⟨tr, f1, h8⟩ := bind_ok.1 h8
      obtain ⟨xe, f2, h8⟩ := bind_ok.1 h8
      rw [pure_ok] at h8
      by_cases hc : tr < opts.etol * xe
      · rw [if_pos hc] at h8
        exact .inr ⟨h8.symm, hw, tr, xe, (hs _ _ f1).1, (hs _ _ f1).2, (hs _ _ f2).1, (hs _ _ f2).2, hc⟩
      · rw [if_neg hc, h.istop] at h8
        exact .inl h8.symm
    · rw [if_neg hw, pure_ok, h.istop] at h8
      exact .inl h8.symm
  have hnp : 0 < st'.normA * st'.normr := mul_pos nAp nrp
  have hV := lsmrVerdict_spec _ _ _ _ _ _ _ _ _ _ hst
  have h4 : ¬ st'.normr / normb / (1 + st'.normA * st'.normx / normb) ≤ 0 := by
    rw [not_le]
    exact div_pos (div_pos nrp hb) (add_pos_of_pos_of_nonneg one_pos (div_nonneg (mul_nonneg nAp.le t.normx.1) hb.le))
  have h6 : ¬ 1 / st'.condA ≤ 0 := by rw [not_le]; exact div_pos one_pos cA
  have e2 : ∀ x : α, st'.normar / (st'.normA * st'.normr) ≤ x ↔ st'.normar ≤ x * (st'.normA * st'.normr) := fun x => div_le_iff₀ hnp
  have hcode : st'.CodeTrue opts normb := by
    refine ⟨?_, ?_, ?_, ?_, ?_⟩ <;> intro hv <;> rw [hv] at hV
    · have hx : st'.normr / normb ≤ opts.btol + opts.atol * st'.normA * st'.normx / normb := by
        rcases hV with ⟨_, g⟩ | ⟨g, _⟩ | ⟨g, _⟩ | ⟨g, _⟩ | ⟨g, _⟩ | ⟨g, _⟩ | ⟨g, _⟩ | ⟨g, _⟩
        · exact g
        all_goals omega
      rw [div_le_iff₀ hb, add_mul, div_mul_cancel₀ _ hb.ne'] at hx
      exact hx
    · rcases hV with ⟨g, _⟩ | ⟨_, g⟩ | ⟨g, _⟩ | ⟨g, _⟩ | ⟨g, _⟩ | ⟨g, _⟩ | ⟨g, _⟩ | ⟨g, _⟩
      on_goal 2 => exact (e2 _).1 g
      all_goals omega
    · have g : 1 / st'.condA ≤ Lsmr.ctol opts := by
        rcases hV with ⟨g, _⟩ | ⟨g, _⟩ | ⟨_, g⟩ | ⟨g, _⟩ | ⟨g, _⟩ | ⟨g, _⟩ | ⟨g, _⟩ | ⟨g, _⟩
        on_goal 3 => exact g
        all_goals omega
      unfold Lsmr.ctol at g
      by_cases hc : 0 < opts.conlim
      · rw [if_pos hc, div_le_div_iff₀ cA hc, one_mul, one_mul] at g
        exact ⟨hc, g⟩
      · rw [if_neg hc] at g
        exact absurd g h6
    · rcases hV with ⟨g, _⟩ | ⟨g, _⟩ | ⟨g, _⟩ | ⟨g, _⟩ | ⟨g, _⟩ | ⟨g, _⟩ | ⟨_, g⟩ | ⟨g, _⟩
      on_goal 7 => have := t.itn; omega
      all_goals omega
    · rcases hV with ⟨g, _⟩ | ⟨g, _⟩ | ⟨g, _⟩ | ⟨g, _⟩ | ⟨g, _⟩ | ⟨g, _⟩ | ⟨g, _⟩ | ⟨g, _⟩
      on_goal 8 => rcases h8' with g' | g'
      on_goal 9 => exact g'.2
      all_goals omega
  have hzero : st'.normar = 0 → 0 ≤ opts.atol → st'.istop = 1 ∨ st'.istop = 2 := by
    intro hz ha
    rw [hz, zero_div] at hV
    rcases hV with ⟨g, _⟩ | ⟨g, _⟩ | ⟨g, g'⟩ | ⟨_, g⟩ | ⟨_, _, g⟩ | ⟨_, g⟩ | ⟨_, _, g⟩ | ⟨_, _, g⟩
    · exact .inl g
    · exact .inr g
    · -- code 3 is overridden
      exfalso
      rw [g] at hst
      unfold lsmrVerdict at hst
      rw [hz, zero_div] at hst
      simp only [if_pos ha] at hst
      split_ifs at hst <;> omega
    · exact absurd g h4
    · exact absurd g (not_lt.2 ha)
    · exact absurd g h6
    · exact absurd g (not_lt.2 ha)
    · exact absurd g (lt_irrefl _)
  refine ⟨⟨hpost, t.normx, nrp, nar0, hcode, ?_, hzero⟩, t.itn, ?_⟩
  · rcases hV with ⟨g, _⟩ | ⟨g, _⟩ | ⟨g, _⟩ | ⟨_, g⟩ | ⟨g, g', g''⟩ | ⟨_, g⟩ | ⟨g, _⟩ | ⟨g, g', _⟩
    · exact .inr (.inl (by rw [g]; decide))
    · exact .inr (.inl (by rw [g]; decide))
    · exact .inr (.inl (by rw [g]; decide))
    · exact absurd g h4
    · exact .inr (.inr ⟨g, lt_of_lt_of_le g'' g'⟩)
    · exact absurd g h6
    · exact .inr (.inl (by rw [g]; decide))
    · rcases h8' with g8 | g8
      · exact .inl ⟨by rw [g, g8], g'⟩
      · exact .inr (.inl (by rw [g, g8.1]; decide))
  · intro h0
    rw [h0] at hV
    have g2 : 0 < st'.normar / (st'.normA * st'.normr) := by
      rcases hV with ⟨g, _⟩ | ⟨g, _⟩ | ⟨g, _⟩ | ⟨g, _⟩ | ⟨g, _⟩ | ⟨g, _⟩ | ⟨g, _⟩ | ⟨_, _, g⟩
      on_goal 8 => exact g
      all_goals omega
    have hzb : st'.zetabar ≠ 0 := by
      intro hz
      rw [t.normar, hz] at g2
      simp at g2
    rcases hlive with hl | ⟨z', qt', y', hl⟩
    · exact absurd hl hzb
    · refine ⟨h0, ⟨_, _, _, _, _, _, hl⟩, maxr, minr, ?_, t.normx, nrp.le, nar0, ?_⟩
      · rw [t.normA2]
        have := h.nA
        have := mul_self_nonneg st'.beta
        have := mul_self_nonneg st'.alpha
        linarith
      · rw [t.xNrg]
        exact add_nonneg h.nX (mul_self_nonneg _)

/-- The loop. -/
theorem lsmrLoop_done {A0 : Matrix (Fin m) (Fin n) α} {b : Fin m → α} {opts : LsmrOpts α} (hd : opts.damp = 0) {sqrt : α → Py α} (hs : IsSqrt sqrt)
    {A : (Fin n → α) → Py (Fin m → α)} {AH : (Fin m → α) → Py (Fin n → α)} (hA : ∀ v, A v = .ok (A0 *ᵥ v)) (hAH : ∀ u, AH u = .ok (A0ᵀ *ᵥ u))
    {normb : α} (hb : 0 < normb) : ∀ (k : Nat) {st st' : LsmrState α m n}, opts.itnlim - st.itn ≤ k → LsmrLive A0 b st →
      Lsmr.loop opts sqrt A AH normb (Lsmr.ctol opts) k st = .ok st' →
      (st' = st ∧ opts.itnlim ≤ st.itn) ∨ (LsmrDone opts A0 b normb st' ∧ st.itn < st'.itn ∧ st'.itn ≤ opts.itnlim ∧ st'.istop ≠ 0)
  | 0, st, st', hk, hl, h => by
    unfold Lsmr.loop at h
    cases h
    exact .inl ⟨rfl, by omega⟩
  | k + 1, st, st', hk, hl, h => by
    unfold Lsmr.loop at h
    by_cases hlt : st.itn < opts.itnlim
    · rw [if_pos hlt] at h
      obtain ⟨s1, h1, h⟩ := bind_ok.1 h
      obtain ⟨d1, d2, d3⟩ := turn_done hd hs hA hAH hb hlt hl h1
      by_cases hz : 0 < s1.istop
      · rw [if_pos hz] at h
        cases h
        exact .inr ⟨d1, by omega, by omega, by omega⟩
      · rw [if_neg hz] at h
        have hz' : s1.istop = 0 := by omega
        rcases lsmrLoop_done hd hs hA hAH hb k (by omega) (d3 hz') h with ⟨rfl, g⟩ | g
        · exfalso
          rcases d1.codes with c | c | c
          · omega
          · rw [hz'] at c; simp at c
          · omega
        · exact .inr ⟨g.1, by omega, g.2.2.1, g.2.2.2⟩
    · rw [if_neg hlt] at h
      cases h
      exact .inl ⟨rfl, by omega⟩

/-- The first vectors. -/
theorem first_ok {A0 : Matrix (Fin m) (Fin n) α} {b : Fin m → α} {sqrt : α → Py α} (hs : IsSqrt sqrt) {AH : (Fin m → α) → Py (Fin n → α)}
    (hAH : ∀ u, AH u = .ok (A0ᵀ *ᵥ u)) {bi : Bidiag α m n} (h : Lsmr.first sqrt AH b = .ok bi) :
    0 ≤ bi.beta ∧ bi.beta * bi.beta = normSq b ∧ 0 ≤ bi.alpha ∧ A0ᵀ *ᵥ b = (bi.alpha * bi.beta) • bi.v ∧
      (bi.beta ≠ 0 → b = bi.beta • bi.u ∧ bi.u ⬝ᵥ bi.u = 1 ∧ A0ᵀ *ᵥ bi.u = bi.alpha • bi.v) ∧ (bi.alpha ≠ 0 → bi.v ⬝ᵥ bi.v = 1) := by
  unfold Lsmr.first at h
  obtain ⟨beta, h1, h⟩ := bind_ok.1 h
  obtain ⟨b0, bb⟩ := hs _ _ h1
  by_cases hb : 0 < beta
  · rw [if_pos hb] at h
    obtain ⟨v, h2, h⟩ := bind_ok.1 h
    rw [hAH] at h2; cases h2
    obtain ⟨alpha, h3, h⟩ := bind_ok.1 h
    obtain ⟨a0, aa⟩ := hs _ _ h3
    cases h
    have hn : normalised beta b = (1 / beta) • b := by unfold normalised; rw [if_pos hb]
    simp only
    rw [hn] at aa ⊢
    obtain ⟨u, hu⟩ : ∃ u, u = (1 / beta) • b := ⟨_, rfl⟩
    rw [← hu] at aa ⊢
    have hbu : b = beta • u := by rw [hu, smul_smul, mul_one_div_cancel hb.ne', one_smul]
    have hv : A0ᵀ *ᵥ u = alpha • normalised alpha (A0ᵀ *ᵥ u) := by
      unfold normalised
      by_cases ha : 0 < alpha
      · rw [if_pos ha, smul_smul, mul_one_div_cancel ha.ne', one_smul]
      · have ha0 : alpha = 0 := le_antisymm (not_lt.1 ha) a0
        rw [ha0, mul_zero] at aa
        rw [ha0, zero_smul]
        exact normSq_zero aa.symm
    refine ⟨b0, bb, a0, ?_, fun _ => ⟨hbu, ?_, hv⟩, ?_⟩
    · rw [mul_comm, ← smul_smul, ← hv, ← Matrix.mulVec_smul, ← hbu]
    · rw [hu, smul_dotProduct, dotProduct_smul, ← bb]; simp only [smul_eq_mul]; field_simp
    · intro ha
      have ha' : 0 < alpha := lt_of_le_of_ne a0 (Ne.symm ha)
      unfold normalised
      rw [if_pos ha', smul_dotProduct, dotProduct_smul, ← aa]; simp only [smul_eq_mul]; field_simp
  · rw [if_neg hb] at h
    cases h
    have hb0 : beta = 0 := le_antisymm (not_lt.1 hb) b0
    have hbz : b = 0 := by rw [hb0, mul_zero] at bb; exact normSq_zero bb.symm
    refine ⟨b0, bb, le_rfl, ?_, fun h => absurd hb0 h, fun h => absurd rfl h⟩
    rw [hbz]; simp

/-- The state before the loop, when the gradient is not zero. -/
theorem start_live {A0 : Matrix (Fin m) (Fin n) α} {b : Fin m → α} {opts : LsmrOpts α} (hh : 0 < opts.huge) {sqrt : α → Py α} (hs : IsSqrt sqrt)
    {AH : (Fin m → α) → Py (Fin n → α)} (hAH : ∀ u, AH u = .ok (A0ᵀ *ᵥ u)) {bi : Bidiag α m n} (h : Lsmr.first sqrt AH b = .ok bi) {normA : α}
    (hne : bi.alpha * bi.beta ≠ 0) : LsmrLive A0 b (Lsmr.start opts bi normA) := by
  obtain ⟨b0, bb, a0, e1, e2, e3⟩ := first_ok (A0 := A0) hs hAH h
  have ha : bi.alpha ≠ 0 := fun h => hne (by rw [h, zero_mul])
  have hb : bi.beta ≠ 0 := fun h => hne (by rw [h, mul_zero])
  have ap : 0 < bi.alpha := lt_of_le_of_ne a0 (Ne.symm ha)
  have bp : 0 < bi.beta := lt_of_le_of_ne b0 (Ne.symm hb)
  obtain ⟨hbu, huu, hAu⟩ := e2 hb
  have hvv := e3 ha
  have k0 : ∀ p, p ∈ krylov (A0ᵀ * A0) (A0ᵀ *ᵥ b) (Lsmr.start opts bi normA).itn → p = 0 := by
    intro p hp
    have hp : p ∈ krylov (A0ᵀ * A0) (A0ᵀ *ᵥ b) 0 := hp
    rwa [krylov_zero, Submodule.mem_bot] at hp
  have hv : bi.v = (1 / (bi.alpha * bi.beta)) • A0ᵀ *ᵥ b := by rw [e1, smul_smul, one_div_mul_cancel hne, one_smul]
  refine ⟨rfl, ⟨0, 0, bi.v, bi.u, 0, 0, ?_⟩, le_rfl, hh, mul_pos ap ap, ⟨le_rfl, by simp [Lsmr.start]⟩, b0, mul_nonneg a0 b0, le_rfl⟩
  constructor
  · exact ap
  · exact ap
  · exact one_pos
  · exact one_pos
  · exact one_pos
  · exact one_pos
  · exact hb
  · exact huu
  · exact hvv
  · show A0ᵀ *ᵥ bi.u = bi.beta • 0 + bi.alpha • bi.v
    rw [hAu]; simp
  · exact Submodule.zero_mem _
  · exact Submodule.zero_mem _
  · exact Submodule.zero_mem _
  · exact Submodule.zero_mem _
  · show bi.v - bi.v ∈ _
    rw [sub_self]; exact Submodule.zero_mem _
  · show bi.v ∈ _
    rw [hv]
    exact Submodule.smul_mem _ _ (Submodule.subset_span ⟨0, by show 0 < 0 + 1; omega, by simp⟩)
  · refine le_trans ?_ le_sup_right
    unfold krylov
    rw [Submodule.span_le]
    rintro _ ⟨j, hj, rfl⟩
    obtain rfl : j = 0 := by
      have : j < 0 + 1 := hj
      omega
    rw [pow_zero, Matrix.one_mulVec]
    exact Submodule.mem_span_singleton.2 ⟨bi.alpha * bi.beta, e1.symm⟩
  · intro p hp; rw [k0 p hp]; simp
  · intro p hp; rw [k0 p hp]; simp
  · show Module.finrank α (krylov (A0ᵀ * A0) (A0ᵀ *ᵥ b) 0) = 0
    rw [krylov_zero]; exact finrank_bot _ _
  · exact hAu
  · show A0 *ᵥ (bi.v - bi.v) = bi.alpha • bi.u - bi.alpha • bi.u
    rw [sub_self, sub_self, Matrix.mulVec_zero]
  · simp [Lsmr.start]
  · simp [Lsmr.start]
  · simp [Lsmr.start]
  · show A0ᵀ *ᵥ (b - A0 *ᵥ (0 : Fin n → α)) = (bi.alpha * bi.beta) • bi.v
    rw [Matrix.mulVec_zero, sub_zero, e1]
  · exact hvv
  · intro p hp; rw [k0 p hp]; simp
  · simp [Lsmr.start]
  · simp [Lsmr.start]
  · show b - A0 *ᵥ (0 : Fin n → α) = ((0 : α) - 0) • 0 + bi.beta • bi.u
    rw [Matrix.mulVec_zero, sub_zero, ← hbu]; simp
  · simp [Lsmr.start]
  · simp [Lsmr.start]
  · simp
  · exact huu
  · exact .inr rfl
  · rfl
  · show A0ᵀ *ᵥ bi.u ⬝ᵥ bi.v = bi.alpha * (bi.u ⬝ᵥ bi.u)
    rw [hAu, smul_dotProduct, hvv, huu]; simp
  · simp

/-- The gradient is minimal. -/
theorem post_minimal {A0 : Matrix (Fin m) (Fin n) α} {b : Fin m → α} {k : Nat} {x : Fin n → α} (hx : x ∈ krylov (A0ᵀ * A0) (A0ᵀ *ᵥ b) k)
    (opt : ∀ p ∈ krylov (A0ᵀ * A0) (A0ᵀ *ᵥ b) k, A0ᵀ *ᵥ (b - A0 *ᵥ x) ⬝ᵥ (A0ᵀ * A0) *ᵥ p = 0) :
    ∀ y ∈ krylov (A0ᵀ * A0) (A0ᵀ *ᵥ b) k, normSq (A0ᵀ *ᵥ (b - A0 *ᵥ x)) ≤ normSq (A0ᵀ *ᵥ (b - A0 *ᵥ y)) := by
  intro y hy
  have e0 := opt _ (Submodule.sub_mem _ hy hx)
  have e1 : A0ᵀ *ᵥ (b - A0 *ᵥ y) = A0ᵀ *ᵥ (b - A0 *ᵥ x) - (A0ᵀ * A0) *ᵥ (y - x) := by
    rw [← Matrix.mulVec_mulVec, ← Matrix.mulVec_sub, Matrix.mulVec_sub A0 y x]; congr 1; abel
  rw [e1]
  obtain ⟨g, hg⟩ : ∃ g, g = A0ᵀ *ᵥ (b - A0 *ᵥ x) := ⟨_, rfl⟩
  obtain ⟨p, hp⟩ : ∃ p, p = (A0ᵀ * A0) *ᵥ (y - x) := ⟨_, rfl⟩
  rw [← hg, ← hp] at e0 ⊢
  have e3 : p ⬝ᵥ g = 0 := by rw [dotProduct_comm]; exact e0
  rw [normSq_eq, normSq_eq, sub_dotProduct, dotProduct_sub, dotProduct_sub, e0, e3]
  have := normSq_nonneg p
  rw [normSq_eq] at this
  linarith

/-- What a solve returns. -/
theorem lsmrSolve_ok {A0 : Matrix (Fin m) (Fin n) α} {b : Fin m → α} {opts : LsmrOpts α} (hd : opts.damp = 0) (hh : 0 < opts.huge) {sqrt : α → Py α}
    (hs : IsSqrt sqrt) {A : (Fin n → α) → Py (Fin m → α)} {AH : (Fin m → α) → Py (Fin n → α)} (hA : ∀ v, A v = .ok (A0 *ᵥ v))
    (hAH : ∀ u, AH u = .ok (A0ᵀ *ᵥ u)) {held : Option (Fin n → α)} {st : LsmrState α m n} {x : Option (Fin n → α)}
    (h : Lsmr.solve opts sqrt A AH b held = .ok (st, x)) :
    ∃ normb, 0 ≤ normb ∧ normb * normb = normSq b ∧ (A0ᵀ *ᵥ b = 0 → x = held) ∧ (A0ᵀ *ᵥ b ≠ 0 → x = some st.x) ∧
      ((LsmrDone opts A0 b normb st ∧ 0 < normb ∧ 0 < st.itn ∧ st.itn ≤ opts.itnlim ∧ st.istop ≠ 0) ∨
       ((A0ᵀ *ᵥ b = 0 ∨ opts.itnlim = 0) ∧ st.itn = 0 ∧ st.istop = 0 ∧ st.x = 0 ∧ st.normx = 0 ∧ st.normr = normb ∧ 0 ≤ st.normar ∧ st.normar * st.normar = normSq (A0ᵀ *ᵥ b))) := by
  unfold Lsmr.solve at h
  obtain ⟨bi, h1, h⟩ := bind_ok.1 h
  obtain ⟨normA, h2, h⟩ := bind_ok.1 h
  obtain ⟨b0, bb, a0, e1, e2, e3⟩ := first_ok (A0 := A0) hs hAH h1
  have hg : normSq (A0ᵀ *ᵥ b) = (bi.alpha * bi.beta) * (bi.alpha * bi.beta) := by
    rw [e1, normSq_eq, smul_dotProduct, dotProduct_smul]
    by_cases ha : bi.alpha = 0
    · rw [ha]; simp
    · rw [e3 ha]; simp
  have hz : A0ᵀ *ᵥ b = 0 ↔ bi.alpha * bi.beta = 0 := by
    constructor
    · intro h0; rw [h0] at hg
      exact mul_self_eq_zero.1 (by rw [← hg]; simp [normSq])
    · intro h0; rw [e1, h0, zero_smul]
  refine ⟨bi.beta, b0, bb, ?_⟩
  by_cases h0 : (Lsmr.start opts bi normA).normar = 0
  · have h0' : bi.alpha * bi.beta = 0 := h0
    simp only [if_pos h0] at h
    cases h
    refine ⟨fun _ => rfl, fun hne => absurd (hz.2 h0') hne, .inr ⟨.inl (hz.2 h0'), rfl, rfl, rfl, rfl, rfl, ?_, ?_⟩⟩
    · exact h0.ge
    · rw [h0, hz.2 h0']; simp [normSq]
  · have h0' : bi.alpha * bi.beta ≠ 0 := h0
    have hne : A0ᵀ *ᵥ b ≠ 0 := fun hh => h0' (hz.1 hh)
    have hbp : 0 < bi.beta := lt_of_le_of_ne b0 (fun hh => h0' (by rw [← hh, mul_zero]))
    simp only [if_neg h0] at h
    obtain ⟨s1, h3, h⟩ := bind_ok.1 h
    cases h
    refine ⟨fun hh => absurd hh hne, fun _ => rfl, ?_⟩
    rcases lsmrLoop_done hd hs hA hAH hbp opts.itnlim (by omega) (start_live hh hs hAH h1 h0') h3 with ⟨rfl, g⟩ | ⟨g1, g2, g3, g4⟩
    · have g' : opts.itnlim ≤ 0 := g
      exact .inr ⟨.inr (by omega), rfl, rfl, rfl, rfl, rfl, mul_nonneg a0 b0, hg.symm⟩
    · exact .inl ⟨g1, hbp, by omega, g3, g4⟩

/-- **C62 (LSMR).** For an operator which is a matrix with its transpose, a solve without damping that returns has made at most the number of unknowns and at most the
limit of iterations; the vector lies in the Krylov space of that order; the reported norms of the residual, of the gradient and of the vector are the true ones, and no
vector of the Krylov space has a smaller gradient. The object's attribute is that vector, unless the gradient of the problem at zero is zero. -/
theorem C62_lsmr {A0 : Matrix (Fin m) (Fin n) α} {b : Fin m → α} {opts : LsmrOpts α} (hd : opts.damp = 0) (hh : 0 < opts.huge) {sqrt : α → Py α}
    (hs : IsSqrt sqrt) {A : (Fin n → α) → Py (Fin m → α)} {AH : (Fin m → α) → Py (Fin n → α)} (hA : ∀ v, A v = .ok (A0 *ᵥ v))
    (hAH : ∀ u, AH u = .ok (A0ᵀ *ᵥ u)) {held : Option (Fin n → α)} {st : LsmrState α m n} {x : Option (Fin n → α)}
    (h : Lsmr.solve opts sqrt A AH b held = .ok (st, x)) :
    (A0ᵀ *ᵥ b ≠ 0 → x = some st.x) ∧ st.itn ≤ n ∧ st.itn ≤ opts.itnlim ∧ st.x ∈ krylov (A0ᵀ * A0) (A0ᵀ *ᵥ b) st.itn ∧
      0 ≤ st.normr ∧ st.normr * st.normr = normSq (b - A0 *ᵥ st.x) ∧
      0 ≤ st.normar ∧ st.normar * st.normar = normSq (A0ᵀ *ᵥ (b - A0 *ᵥ st.x)) ∧
      0 ≤ st.normx ∧ st.normx * st.normx = normSq st.x ∧
      ∀ y ∈ krylov (A0ᵀ * A0) (A0ᵀ *ᵥ b) st.itn, normSq (A0ᵀ *ᵥ (b - A0 *ᵥ st.x)) ≤ normSq (A0ᵀ *ᵥ (b - A0 *ᵥ y)) := by
  obtain ⟨normb, n0, nn, _, hx, ⟨g1, _, _, g2, _⟩ | ⟨_, k1, _, k2, k3, k4, k5, k6⟩⟩ := lsmrSolve_ok hd hh hs hA hAH h
  · have hdim := Submodule.finrank_le (krylov (A0ᵀ * A0) (A0ᵀ *ᵥ b) st.itn)
    rw [g1.post.rank, Module.finrank_fin_fun] at hdim
    exact ⟨hx, hdim, g2, g1.post.x_mem, g1.nr.le, g1.post.normr, g1.nar, g1.post.normar, g1.nx.1, g1.nx.2, post_minimal g1.post.x_mem g1.post.opt⟩
  · refine ⟨hx, by omega, by omega, by rw [k2]; exact Submodule.zero_mem _, by rw [k4]; exact n0, ?_, k5, ?_, k3.ge, ?_, ?_⟩
    · rw [k4, k2, Matrix.mulVec_zero, sub_zero, nn]
    · rw [k6, k2, Matrix.mulVec_zero, sub_zero]
    · rw [k3, k2]; simp [normSq]
    · intro y hy
      rw [k1, krylov_zero, Submodule.mem_bot] at hy
      rw [hy, k2]

end Verif
