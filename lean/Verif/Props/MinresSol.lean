import Verif.Props.Minres
/-
C61: what MINRES finds, for a symmetric matrix.
-/
set_option autoImplicit false
namespace Verif
variable {α : Type} [Field α] [LinearOrder α] [IsStrictOrderedRing α] {n : Nat}
open Matrix

theorem krylov_zero (M : Matrix (Fin n) (Fin n) α) (b : Fin n → α) : krylov M b 0 = ⊥ := by
  unfold krylov
  rw [Submodule.span_eq_bot]
  rintro x ⟨j, hj, _⟩
  omega

theorem start_inv {M : Matrix (Fin n) (Fin n) α} {opts : MinresOpts α} {b : Fin n → α} {beta1 : α} (hb : 0 < b ⬝ᵥ b) (h0 : 0 ≤ beta1)
    (h1 : beta1 * beta1 = b ⬝ᵥ b) : MinresInv M b (Minres.start opts b 0 beta1) 0 ((1 / beta1) • b) 0 ((1 / beta1) • b) := by
  have hne : beta1 ≠ 0 := by intro h; rw [h] at h1; simp at h1; linarith
  have hy : b = beta1 • ((1 / beta1) • b) := by rw [smul_smul, mul_one_div_cancel hne, one_smul]
  have hu : ((1 / beta1) • b) ⬝ᵥ ((1 / beta1) • b) = 1 := by
    rw [smul_dotProduct, dotProduct_smul, ← h1]; simp only [smul_eq_mul]; field_simp
  constructor
  · exact h0
  · exact hy
  · exact hy
  · exact fun h => absurd h (by show ¬ 1 ≤ 0; omega)
  · exact fun _ => rfl
  · exact fun _ => hu
  · exact Submodule.zero_mem _
  · exact Submodule.zero_mem _
  · exact Submodule.zero_mem _
  · exact Submodule.zero_mem _
  · exact Submodule.zero_mem _
  · exact Submodule.smul_mem _ _ (Submodule.subset_span ⟨0, by show 0 < 1; omega, by simp⟩)
  · refine le_trans ?_ le_sup_right
    unfold krylov
    rw [Submodule.span_le]
    rintro _ ⟨j, hj, rfl⟩
    obtain rfl : j = 0 := by
      have : j < 0 + 1 := hj
      omega
    rw [pow_zero, Matrix.one_mulVec]
    exact Submodule.mem_span_singleton.2 ⟨beta1, hy.symm⟩
  · intro p hp
    have hp : p ∈ krylov M b 0 := hp
    rw [krylov_zero, Submodule.mem_bot] at hp
    rw [hp]; simp
  · intro p hp
    have hp : p ∈ krylov M b 0 := hp
    rw [krylov_zero, Submodule.mem_bot] at hp
    rw [hp]; simp
  · simp [Minres.start]
  · simp [Minres.start]
  · simp [Minres.start]
  · simp [Minres.start]
  · show b - M *ᵥ (0 : Fin n → α) = _
    rw [Matrix.mulVec_zero, sub_zero]; exact hy
  · exact fun _ => hu
  · exact fun h => absurd h hne
  · exact h0
  · intro p hp
    have hp : p ∈ krylov M b 0 := hp
    rw [krylov_zero, Submodule.mem_bot] at hp
    rw [hp]; simp
  · show Module.finrank α (krylov M b 0) = 0
    rw [krylov_zero]; exact finrank_bot _ _
  · simp [Minres.start]

theorem turn_inv {M0 : Matrix (Fin n) (Fin n) α} (hM : M0.IsSymm) {opts : MinresOpts α} (heps : 0 < opts.eps)
    (hσ : BoundedBelow (M0 - opts.shift • 1) opts.eps) {sqrt : α → Py α} (hs : IsSqrt sqrt) {A : (Fin n → α) → Py (Fin n → α)}
    (hA : ∀ v, A v = .ok (M0 *ᵥ v)) {b : Fin n → α} {st : MinresState α n} {r : MinresState α n × Bool} {beta1 : α}
    (h : ∃ v0 v1 z0 z1, MinresInv (M0 - opts.shift • 1) b st v0 v1 z0 z1) (ht : st.turn opts sqrt A beta1 = .ok r) :
    (∃ v0 v1 z0 z1, MinresInv (M0 - opts.shift • 1) b r.1 v0 v1 z0 z1) ∧ r.1.rnorm = r.1.phibar ∧ r.1.phibar ≤ st.phibar ∧
      r.1.residHistory = st.residHistory ++ [r.1.phibar] ∧
      r.1.Arnorm * r.1.Arnorm = normSq ((M0 - opts.shift • 1) *ᵥ (b - (M0 - opts.shift • 1) *ᵥ st.x)) ∧ 0 ≤ r.1.Arnorm := by
  obtain ⟨v0, v1, z0, z1, h⟩ := h
  obtain ⟨lz, beta, g1, g2, g3, _⟩ := turn_ok ht
  obtain ⟨e1, e2, e3, e4⟩ := lanczos_eq hA h g1
  have hM' : (M0 - opts.shift • 1).IsSymm := by
    unfold Matrix.IsSymm
    rw [Matrix.transpose_sub, hM.eq, Matrix.transpose_smul, Matrix.transpose_one]
  obtain ⟨⟨v2, z2, f1⟩, f2, f3, f4, f5, f6, f7⟩ := advance_inv hM' heps hσ hs h e1 e2 e3 e4 g2 g3
  exact ⟨⟨v1, v2, z1, z2, f1⟩, f3, f4, f5, f6, f7⟩

/-- The residual of `x` for the matrix `M`. -/
theorem inv_residual {M : Matrix (Fin n) (Fin n) α} {b : Fin n → α} {st : MinresState α n} {v0 v1 z0 z1 : Fin n → α} (h : MinresInv M b st v0 v1 z0 z1) :
    st.phibar * st.phibar = normSq (b - M *ᵥ st.x) := by
  rw [h.res, normSq_eq, smul_dotProduct, dotProduct_smul]
  by_cases h0 : st.beta = 0
  · rw [h.stuck h0]; simp
  · rw [h.zz h0]; simp

/-- The minimality of the residual over the Krylov space. -/
theorem inv_minimal {M : Matrix (Fin n) (Fin n) α} {b : Fin n → α} {st : MinresState α n} {v0 v1 z0 z1 : Fin n → α} (h : MinresInv M b st v0 v1 z0 z1) :
    ∀ y ∈ krylov M b st.itn, normSq (b - M *ᵥ st.x) ≤ normSq (b - M *ᵥ y) := by
  intro y hy
  have hd : y - st.x ∈ krylov M b st.itn := Submodule.sub_mem _ hy h.x_mem
  have e1 : b - M *ᵥ y = (b - M *ᵥ st.x) - M *ᵥ (y - st.x) := by rw [Matrix.mulVec_sub]; abel
  have e2 : (b - M *ᵥ st.x) ⬝ᵥ M *ᵥ (y - st.x) = 0 := by rw [h.res, smul_dotProduct, h.opt _ hd]; simp
  have e3 : M *ᵥ (y - st.x) ⬝ᵥ (b - M *ᵥ st.x) = 0 := by rw [dotProduct_comm]; exact e2
  rw [e1]
  obtain ⟨r, hr⟩ : ∃ r, r = b - M *ᵥ st.x := ⟨_, rfl⟩
  rw [← hr] at e2 e3 ⊢
  rw [normSq_eq, normSq_eq, sub_dotProduct, dotProduct_sub, dotProduct_sub, e2, e3]
  have := normSq_nonneg (M *ᵥ (y - st.x))
  rw [normSq_eq] at this
  linarith

/-- The number of iterations is at most the number of unknowns. -/
theorem inv_dim {M : Matrix (Fin n) (Fin n) α} {b : Fin n → α} {st : MinresState α n} {v0 v1 z0 z1 : Fin n → α} (h : MinresInv M b st v0 v1 z0 z1) :
    st.itn ≤ n := by
  have := Submodule.finrank_le (krylov M b st.itn)
  rw [h.rank, Module.finrank_fin_fun] at this
  exact this

/-- **C61 (MINRES).** For a symmetric matrix (minus the shift) no vector is shortened by more than the factor `eps`, a solve which returns after at least one
iteration returns a vector `x` of the Krylov space of dimension `itn` at most the number of unknowns; the reported residual norm is that of `b - M x`; no vector of
the Krylov space has a smaller residual; the reported residual norms never increase, from the norm of `b` on; the reported gradient norm is the one of
the iterate `x'` before, which is optimal in the smaller Krylov space. -/
theorem C61_minres {M0 : Matrix (Fin n) (Fin n) α} (hM : M0.IsSymm) {opts : MinresOpts α} (heps : 0 < opts.eps)
    (hσ : BoundedBelow (M0 - opts.shift • 1) opts.eps) {sqrt : α → Py α} (hs : IsSqrt sqrt) {A : (Fin n → α) → Py (Fin n → α)}
    (hA : ∀ v, A v = .ok (M0 *ᵥ v)) {probes : List (Fin n → α)} {b : Fin n → α} {st : MinresState α n} (h : Minres.solve opts sqrt A probes b = .ok st)
    (hit : 1 ≤ st.itn) :
    st.itn ≤ n ∧ st.x ∈ krylov (M0 - opts.shift • 1) b st.itn ∧
      0 ≤ st.rnorm ∧ st.rnorm * st.rnorm = normSq (b - (M0 - opts.shift • 1) *ᵥ st.x) ∧
      (∀ y ∈ krylov (M0 - opts.shift • 1) b st.itn, normSq (b - (M0 - opts.shift • 1) *ᵥ st.x) ≤ normSq (b - (M0 - opts.shift • 1) *ᵥ y)) ∧
      (∃ normb, 0 ≤ normb ∧ normb * normb = normSq b ∧ List.Pairwise (fun x y => y ≤ x) (normb :: st.residHistory)) ∧
      st.residHistory.getLast? = some st.rnorm ∧
      ∃ x' ∈ krylov (M0 - opts.shift • 1) b (st.itn - 1),
        (∀ y ∈ krylov (M0 - opts.shift • 1) b (st.itn - 1), normSq (b - (M0 - opts.shift • 1) *ᵥ x') ≤ normSq (b - (M0 - opts.shift • 1) *ᵥ y)) ∧
        0 ≤ st.Arnorm ∧ st.Arnorm * st.Arnorm = normSq ((M0 - opts.shift • 1) *ᵥ (b - (M0 - opts.shift • 1) *ᵥ x')) := by
  obtain ⟨M, hMd⟩ : ∃ M, M = M0 - opts.shift • 1 := ⟨_, rfl⟩
  unfold Minres.solve at h
  obtain ⟨beta1, h1, h⟩ := bind_ok.1 h
  obtain ⟨sym, h2, h⟩ := bind_ok.1 h
  have hnn : ¬ b ⬝ᵥ b < 0 := not_lt.2 (normSq_nonneg b)
  simp only [if_neg hnn] at h
  by_cases hc : (sym && decide (0 < b ⬝ᵥ b)) = true
  · rw [if_pos hc] at h
    rw [Bool.and_eq_true, decide_eq_true_eq] at hc
    obtain ⟨hs1, hb⟩ := hc
    subst hs1
    have hb1 : 0 ≤ beta1 ∧ beta1 * beta1 = b ⬝ᵥ b := by
      unfold Minres.beta1 at h1
      rw [if_pos hb] at h1
      exact hs _ _ h1
    have key := loop_induct (opts := opts) (sqrt := sqrt) (A := A) (beta1 := beta1)
      (fun st => (∃ v0 v1 z0 z1, MinresInv (M0 - opts.shift • 1) b st v0 v1 z0 z1) ∧ (1 ≤ st.itn → st.rnorm = st.phibar) ∧
        List.Pairwise (fun x y => y ≤ x) (beta1 :: st.residHistory) ∧ (∀ x ∈ beta1 :: st.residHistory, st.phibar ≤ x) ∧
        (1 ≤ st.itn → st.residHistory.getLast? = some st.phibar ∧ ∃ s0 : MinresState α n, s0.itn = st.itn - 1 ∧
          (∃ v0 v1 z0 z1, MinresInv (M0 - opts.shift • 1) b s0 v0 v1 z0 z1) ∧
          0 ≤ st.Arnorm ∧ st.Arnorm * st.Arnorm = normSq ((M0 - opts.shift • 1) *ᵥ (b - (M0 - opts.shift • 1) *ᵥ s0.x)))) (by
        rintro st r ⟨hP, _, p3, p4, _⟩ _ _ ht
        have hi := turn_itn st r.1 r.2 ht
        obtain ⟨f1, f2, f3, f4, f5, f6⟩ := turn_inv hM heps hσ hs hA hP ht
        refine ⟨f1, fun _ => f2, ?_, ?_, fun _ => ⟨by rw [f4]; simp, st, by omega, hP, f6, f5⟩⟩
        · rw [f4, ← List.cons_append, List.pairwise_append]
          refine ⟨p3, by simp, fun a ha c hc => ?_⟩
          rw [List.mem_singleton] at hc
          rw [hc]
          exact f3.trans (p4 a ha)
        · rw [f4, ← List.cons_append]
          intro x hx
          rcases List.mem_append.1 hx with hx | hx
          · exact f3.trans (p4 x hx)
          · rw [List.mem_singleton] at hx
            rw [hx])
      opts.itnlim ⟨⟨_, _, _, _, start_inv hb hb1.1 hb1.2⟩, fun h => absurd h (by show ¬ 1 ≤ 0; omega), by simp [Minres.start], by simp [Minres.start], fun h => absurd h (by show ¬ 1 ≤ 0; omega)⟩
      (.inl rfl) (by show opts.itnlim - 0 ≤ _; omega) h
    obtain ⟨⟨⟨v0, v1, z0, z1, k1⟩, k2, k3, k4, k5⟩, _⟩ := key
    obtain ⟨k6, s0, k7, ⟨u0, u1, y0, y1, k8⟩, k9, k10⟩ := k5 hit
    have hr := k2 hit
    refine ⟨inv_dim k1, k1.x_mem, by rw [hr]; exact k1.phi_nonneg, by rw [hr]; exact inv_residual k1, inv_minimal k1, ⟨beta1, hb1.1, hb1.2, k3⟩, by rw [hr]; exact k6,
      s0.x, by rw [← k7]; exact k8.x_mem, by rw [← k7]; exact inv_minimal k8, k9, k10⟩
  · rw [if_neg hc, pure_ok] at h
    rw [← h] at hit
    exact absurd hit (by show ¬ 1 ≤ 0; omega)

/-! ### A solve returns -/

theorem realSqrt_ok {x : ℝ} (h : 0 ≤ x) : realSqrt x = .ok (Real.sqrt x) := by
  unfold realSqrt; rw [if_neg (not_lt.2 h)]

theorem realSqrt_spec : IsSqrt realSqrt := by
  intro x r h
  unfold realSqrt at h
  by_cases hx : x < 0
  · rw [if_pos hx] at h; cases h
  · rw [if_neg hx] at h
    cases h
    exact ⟨Real.sqrt_nonneg x, Real.mul_self_sqrt (not_lt.1 hx)⟩

omit [IsStrictOrderedRing α] in
theorem npDiv_total {a b : α} (h : b ≠ 0) : npDiv a b = .ok (a / b) := by unfold npDiv; rw [if_neg h]

omit [IsStrictOrderedRing α] in
theorem minresVerdict_nonneg (opts : MinresOpts α) (itn : Nat) (test1 test2 : α) (Acond : Option α) (epsx beta1 : α) :
    0 ≤ minresVerdict opts 0 itn test1 test2 Acond epsx beta1 := by
  obtain ⟨v, hv⟩ : ∃ v, v = minresVerdict opts 0 itn test1 test2 Acond epsx beta1 := ⟨_, rfl⟩
  rw [← hv]
  rcases minresVerdict_spec opts itn test1 test2 Acond epsx beta1 v hv with g | g | g | g | g | g <;> omega

/-- The numbers of the loop which are not tied to the matrix. -/
structure MinresNums (opts : MinresOpts ℝ) (beta1 : ℝ) (st : MinresState ℝ n) : Prop where
  first : st.itn = 0 → st.rhs1 = beta1 ∧ st.tnorm2 = 0 ∧ st.ynorm2 = 0 ∧ st.beta = beta1
  later : 1 ≤ st.itn → 0 < st.tnorm2 ∧ 0 < st.ynorm2
  xn : 0 ≤ st.xNrgNorm2

theorem sumSq_nonneg (l : List ℝ) : 0 ≤ sumSq l := by
  unfold sumSq
  exact List.sum_nonneg (by simp only [List.mem_map]; rintro _ ⟨a, _, rfl⟩; exact mul_self_nonneg a)

theorem advance_total {opts : MinresOpts ℝ} (heps : 0 < opts.eps) (hr : 0 ≤ opts.rtol) {beta1 beta : ℝ} (hb1 : 0 < beta1) (hb : 0 ≤ beta)
    {st : MinresState ℝ n} (hn : MinresNums opts beta1 st) (hst : st.istop = 0) (lz : LanczosStep ℝ n) (hfar : st.itn = 0 → ¬ beta / beta1 ≤ 10 * opts.eps) :
    ∃ st', st.advance opts realSqrt beta1 lz beta = .ok st' ∧ MinresNums opts beta1 st' ∧ (st'.istop = 0 → beta ≠ 0) ∧ 0 ≤ st'.istop ∧ st'.beta = beta ∧
      (beta = 0 → st'.istop = 1 ∨ st'.istop = 10) := by
  have e1 : realSqrt ((st.sn * st.dbar - st.cs * lz.alfa) ^ 2 + (-st.cs * beta) ^ 2) = .ok _ := realSqrt_ok (by positivity)
  have e2 : realSqrt ((st.sn * st.dbar - st.cs * lz.alfa) ^ 2 + beta ^ 2) = .ok _ := realSqrt_ok (by positivity)
  obtain ⟨hyp, hh⟩ : ∃ hyp, hyp = Real.sqrt ((st.sn * st.dbar - st.cs * lz.alfa) ^ 2 + beta ^ 2) := ⟨_, rfl⟩
  rw [← hh] at e2
  obtain ⟨phi, hphi⟩ : ∃ phi, phi = (st.sn * st.dbar - st.cs * lz.alfa) / max hyp opts.eps * st.phibar := ⟨_, rfl⟩
  have gpos : 0 < max hyp opts.eps := lt_of_lt_of_le heps (le_max_right _ _)
  have hi0 : (if st.itn + 1 = 1 then (if beta / beta1 ≤ 10 * opts.eps then (-1 : Int) else st.istop) else st.istop) = 0 := by
    by_cases h0 : st.itn = 0
    · rw [if_pos (by omega), if_neg (hfar h0), hst]
    · rw [if_neg (by omega), hst]
  have e3 : ∃ i, MinresState.directError opts realSqrt 0 (st.itn + 1) (st.dErr.set ((st.itn + 1) % opts.window) phi) (st.xNrgNorm2 + phi * phi) = .ok i ∧ (i = 0 ∨ i = 10) := by
    unfold MinresState.directError
    by_cases hw : opts.window < st.itn + 1
    · rw [if_pos hw]
      refine ⟨_, bind_ok.2 ⟨_, realSqrt_ok (sumSq_nonneg _), bind_ok.2 ⟨_, realSqrt_ok (add_nonneg hn.xn (mul_self_nonneg _)), rfl⟩⟩, ?_⟩
      split_ifs
      · exact .inr rfl
      · exact .inl rfl
    · rw [if_neg hw]
      exact ⟨_, rfl, .inl rfl⟩
  obtain ⟨i10, e3, e3'⟩ := e3
  have hbeta : st.itn = 0 → st.beta = beta1 := fun h => (hn.first h).2.2.2
  have ht2 : 0 < st.tnorm2 + lz.alfa ^ 2 + st.beta ^ 2 + beta ^ 2 := by
    by_cases h0 : st.itn = 0
    · rw [hbeta h0, (hn.first h0).2.1]; positivity
    · have := (hn.later (by omega)).1; positivity
  have hy2 : 0 < (st.rhs1 / max hyp opts.eps) ^ 2 + st.ynorm2 := by
    by_cases h0 : st.itn = 0
    · rw [(hn.first h0).1, (hn.first h0).2.2.1]; positivity
    · have := (hn.later (by omega)).2; positivity
  have e4 := realSqrt_ok ht2.le
  have e5 := realSqrt_ok hy2.le
  have pA := Real.sqrt_pos.2 ht2
  have pY := Real.sqrt_pos.2 hy2
  have e6 : npDiv (beta / max hyp opts.eps * st.phibar) (Real.sqrt (st.tnorm2 + lz.alfa ^ 2 + st.beta ^ 2 + beta ^ 2) *
    Real.sqrt ((st.rhs1 / max hyp opts.eps) ^ 2 + st.ynorm2)) = .ok _ := npDiv_total (mul_pos pA pY).ne'
  have e7 := npDiv_total (a := Real.sqrt ((st.sn * st.dbar - st.cs * lz.alfa) ^ 2 + (-st.cs * beta) ^ 2)) pA.ne'
  unfold MinresState.advance
  refine ⟨_, bind_ok.2 ⟨_, e1, bind_ok.2 ⟨_, e2, bind_ok.2 ⟨i10, (by rw [hi0, ← hphi]; exact e3), bind_ok.2 ⟨_, e4, bind_ok.2 ⟨_, e5, bind_ok.2 ⟨_, e6,
    bind_ok.2 ⟨_, e7, rfl⟩⟩⟩⟩⟩⟩⟩, ?_⟩
  · refine ⟨⟨fun h => absurd h (by simp), fun _ => ⟨ht2, hy2⟩, ?_⟩, ?_, ?_, rfl, ?_⟩
    · exact add_nonneg hn.xn (mul_self_nonneg _)
    · intro h0 hbz
      rcases e3' with e3' | e3'
      · rw [e3', hbz] at h0
        simp only [zero_div, zero_mul] at h0
        unfold minresVerdict at h0
        simp only [ne_eq, not_true_eq_false, if_false, hr, if_true] at h0
        cases h0
      · rw [e3'] at h0
        cases h0
    · rcases e3' with e3' | e3'
      · rw [e3']
        exact minresVerdict_nonneg _ _ _ _ _ _ _
      · rw [e3']; show (0 : Int) ≤ 10; decide
    · intro hbz
      rcases e3' with e3' | e3'
      · left
        rw [e3', hbz]
        simp only [zero_div, zero_mul]
        unfold minresVerdict
        simp only [ne_eq, not_true_eq_false, if_false, hr, if_true]
      · right
        rw [e3']; rfl

theorem lanczos_total {M0 : Matrix (Fin n) (Fin n) ℝ} {opts : MinresOpts ℝ} {A : (Fin n → ℝ) → Py (Fin n → ℝ)} (hA : ∀ v, A v = .ok (M0 *ᵥ v))
    {b : Fin n → ℝ} {st : MinresState ℝ n} {v0 v1 z0 z1 : Fin n → ℝ} (h : MinresInv (M0 - opts.shift • 1) b st v0 v1 z0 z1) (hb : st.beta ≠ 0) :
    ∃ lz, st.lanczos opts A = .ok lz := by
  have e : ∀ y, ∃ y', st.orthogonalise y = .ok y' := by
    intro y
    unfold MinresState.orthogonalise
    by_cases hi : 2 ≤ st.itn + 1
    · rw [if_pos hi]
      exact ⟨_, bind_ok.2 ⟨_, npDiv_total (h.r1_eq (by omega)).1, rfl⟩⟩
    · rw [if_neg hi]; exact ⟨_, rfl⟩
  obtain ⟨y', hy'⟩ := e (M0 *ᵥ ((1 / st.beta) • st.y) - opts.shift • ((1 / st.beta) • st.y))
  unfold MinresState.lanczos
  exact ⟨_, bind_ok.2 ⟨_, npDiv_total hb, bind_ok.2 ⟨_, hA _, bind_ok.2 ⟨_, hy', bind_ok.2 ⟨_, npDiv_total hb, rfl⟩⟩⟩⟩⟩

/-- The right-hand side is not an eigenvector, up to ten times `eps`. -/
def FarFromEigenvector (M : Matrix (Fin n) (Fin n) ℝ) (b : Fin n → ℝ) (eps : ℝ) : Prop :=
  ∀ c : ℝ, (10 * eps * normSq b) ^ 2 < normSq (M *ᵥ b - c • b)

theorem minresLoop_total {M0 : Matrix (Fin n) (Fin n) ℝ} (hM : M0.IsSymm) {opts : MinresOpts ℝ} (heps : 0 < opts.eps) (hr : 0 ≤ opts.rtol)
    (hσ : BoundedBelow (M0 - opts.shift • 1) opts.eps) {A : (Fin n → ℝ) → Py (Fin n → ℝ)} (hA : ∀ v, A v = .ok (M0 *ᵥ v)) {b : Fin n → ℝ}
    (hfar : FarFromEigenvector (M0 - opts.shift • 1) b opts.eps) {beta1 : ℝ} (hb1 : 0 < beta1) (hbb : beta1 * beta1 = normSq b) :
    ∀ (k : Nat) {st : MinresState ℝ n}, (∃ v0 v1 z0 z1, MinresInv (M0 - opts.shift • 1) b st v0 v1 z0 z1) → MinresNums opts beta1 st → st.istop = 0 →
      st.beta ≠ 0 → (st.itn = 0 → st.y = b) → ∃ st', Minres.loop opts realSqrt A beta1 k st = .ok st' ∧ 0 ≤ st'.istop ∧
        (∃ v0 v1 z0 z1, MinresInv (M0 - opts.shift • 1) b st' v0 v1 z0 z1) ∧ (st'.beta = 0 → st'.istop = 1 ∨ st'.istop = 10)
  | 0, st, hi, hn, hst, hb, h0 => ⟨st, rfl, by rw [hst], hi, fun h => absurd h hb⟩
  | k + 1, st, hi, hn, hst, hb, h0 => by
    unfold Minres.loop
    by_cases hlt : st.itn < opts.itnlim
    · rw [if_pos hlt]
      obtain ⟨v0, v1, z0, z1, h⟩ := hi
      obtain ⟨lz, hl⟩ := lanczos_total hA h hb
      obtain ⟨f1, f2, f3, f4⟩ := lanczos_eq hA h hl
      have e1 := realSqrt_ok (normSq_nonneg lz.y)
      have hfar' : st.itn = 0 → ¬ Real.sqrt (normSq lz.y) / beta1 ≤ 10 * opts.eps := by
        intro hz hle
        have hv0 := h.v0_zero hz
        have hv1 : v1 = (1 / beta1) • b := by
          have := h.y_eq
          rw [h0 hz, (hn.first hz).2.2.2] at this
          rw [this, smul_smul, one_div, inv_mul_cancel₀ hb1.ne', one_smul]
        rw [hv0, smul_zero, sub_zero] at f4
        have hf := hfar lz.alfa
        have e2 : lz.y = (1 / beta1) • ((M0 - opts.shift • 1) *ᵥ b - lz.alfa • b) := by
          rw [f4, hv1, Matrix.mulVec_smul, smul_sub, smul_smul, smul_smul, mul_comm]
        have e3 : normSq ((M0 - opts.shift • 1) *ᵥ b - lz.alfa • b) = normSq lz.y * (beta1 * beta1) := by
          rw [e2, normSq_eq, normSq_eq, smul_dotProduct, dotProduct_smul]
          simp only [smul_eq_mul]; field_simp
        rw [div_le_iff₀ hb1] at hle
        have hy0 := normSq_nonneg lz.y
        have e4 : normSq lz.y ≤ (10 * opts.eps * beta1) ^ 2 := by
          rw [← Real.sq_sqrt hy0]
          exact pow_le_pow_left₀ (Real.sqrt_nonneg _) hle 2
        rw [e3, ← hbb] at hf
        have : normSq lz.y * (beta1 * beta1) ≤ (10 * opts.eps * beta1) ^ 2 * (beta1 * beta1) := mul_le_mul_of_nonneg_right e4 (mul_self_nonneg _)
        nlinarith
      obtain ⟨st', g1, g2, g3, g4, g5, g6⟩ := advance_total heps hr hb1 (Real.sqrt_nonneg _) hn hst lz hfar'
      have ht : st.turn opts realSqrt A beta1 = .ok (st', decide (0 < st'.istop)) := by
        unfold MinresState.turn
        refine bind_ok.2 ⟨lz, hl, ?_⟩
        have hnn : ¬ lz.y ⬝ᵥ lz.y < 0 := not_lt.2 (normSq_nonneg lz.y)
        simp only [if_neg hnn]
        exact bind_ok.2 ⟨_, e1, bind_ok.2 ⟨st', g1, rfl⟩⟩
      have hi' := (turn_inv hM heps hσ realSqrt_spec hA ⟨v0, v1, z0, z1, h⟩ ht).1
      by_cases hp : 0 < st'.istop
      · exact ⟨st', bind_ok.2 ⟨_, ht, by simp only [hp, decide_true, if_true]; rfl⟩, g4, hi', fun hz => g6 (by rw [← g5]; exact hz)⟩
      · have hz : st'.istop = 0 := by omega
        obtain ⟨s, k1, k2⟩ := minresLoop_total hM heps hr hσ hA hfar hb1 hbb k hi' g2 hz (by rw [g5]; exact g3 hz) (by
          intro hz0; have := turn_itn _ _ _ ht; exfalso; simp only at hz0; omega)
        exact ⟨s, bind_ok.2 ⟨_, ht, by simp only [hp, decide_false, Bool.false_eq_true, if_false]; exact k1⟩, k2⟩
    · rw [if_neg hlt]
      exact ⟨st, rfl, by rw [hst], hi, fun h => absurd h hb⟩

/-- The symmetry test accepts every symmetric matrix, whatever the random vectors. -/
theorem checkSymmetric_symm {M0 : Matrix (Fin n) (Fin n) α} (hM : M0.IsSymm) {opts : MinresOpts α} (heps : 0 ≤ opts.eps) (hc : 0 ≤ opts.cubeRootEps)
    {A : (Fin n → α) → Py (Fin n → α)} (hA : ∀ v, A v = .ok (M0 *ᵥ v)) : ∀ probes, checkSymmetric opts A probes = .ok true
  | [] => rfl
  | x :: probes => by
    unfold checkSymmetric
    refine bind_ok.2 ⟨_, hA _, bind_ok.2 ⟨_, hA _, ?_⟩⟩
    have e : x ⬝ᵥ M0 *ᵥ (M0 *ᵥ x) = M0 *ᵥ x ⬝ᵥ M0 *ᵥ x := symm_dot hM _ _
    have h0 := normSq_nonneg (M0 *ᵥ x)
    rw [normSq_eq] at h0
    have hn : ¬ (M0 *ᵥ x ⬝ᵥ M0 *ᵥ x + opts.eps) * opts.cubeRootEps < |M0 *ᵥ x ⬝ᵥ M0 *ᵥ x - x ⬝ᵥ M0 *ᵥ (M0 *ᵥ x)| := by
      rw [e, sub_self, abs_zero, not_lt]
      exact mul_nonneg (add_nonneg h0 heps) hc
    simp only [if_neg hn]
    exact checkSymmetric_symm hM heps hc hA probes

/-- **C61 (MINRES returns).** For a real symmetric matrix (minus the shift) which shortens no vector by more than the factor `eps`, and a right-hand side which is not
an eigenvector up to ten times `eps`, a solve returns. If as many iterations as unknowns are allowed, it reports convergence. -/
theorem C61_minres_returns {M0 : Matrix (Fin n) (Fin n) ℝ} (hM : M0.IsSymm) {opts : MinresOpts ℝ} (heps : 0 < opts.eps) (hr : 0 ≤ opts.rtol)
    (hc : 0 ≤ opts.cubeRootEps) (hσ : BoundedBelow (M0 - opts.shift • 1) opts.eps) {A : (Fin n → ℝ) → Py (Fin n → ℝ)} (hA : ∀ v, A v = .ok (M0 *ᵥ v))
    (probes : List (Fin n → ℝ)) {b : Fin n → ℝ} (hfar : FarFromEigenvector (M0 - opts.shift • 1) b opts.eps) :
    ∃ st, Minres.solve opts realSqrt A probes b = .ok st ∧ (n ≤ opts.itnlim → st.converged = true) := by
  have hb : 0 < b ⬝ᵥ b := by
    have h0 := normSq_nonneg b
    rcases h0.lt_or_eq with h | h
    · exact h
    · have hb0 : b = 0 := normSq_zero h.symm
      have := hfar 0
      rw [hb0] at this
      simp [normSq] at this
  have hnn : ¬ b ⬝ᵥ b < 0 := not_lt.2 hb.le
  have hb1 := Real.sqrt_pos.2 hb
  have hbb : Real.sqrt (b ⬝ᵥ b) * Real.sqrt (b ⬝ᵥ b) = b ⬝ᵥ b := Real.mul_self_sqrt hb.le
  have hsym : Minres.symmetric opts A probes = .ok true := by
    unfold Minres.symmetric
    split_ifs
    · exact checkSymmetric_symm hM heps.le hc hA probes
    · rfl
  have hn0 : MinresNums opts (Real.sqrt (b ⬝ᵥ b)) (Minres.start opts b 0 (Real.sqrt (b ⬝ᵥ b))) :=
    ⟨fun _ => ⟨rfl, rfl, rfl, rfl⟩, fun h => absurd h (by show ¬ 1 ≤ 0; omega), le_rfl⟩
  obtain ⟨st, g1, g2, g3, g4⟩ := minresLoop_total hM heps hr hσ hA hfar hb1 hbb opts.itnlim ⟨_, _, _, _, start_inv (opts := opts) hb hb1.le hbb⟩ hn0 rfl hb1.ne'
    (fun _ => rfl)
  have hsolve : Minres.solve opts realSqrt A probes b = .ok st := by
    unfold Minres.solve
    refine bind_ok.2 ⟨Real.sqrt (b ⬝ᵥ b), ?_, bind_ok.2 ⟨true, hsym, ?_⟩⟩
    · unfold Minres.beta1
      rw [if_pos hb, realSqrt_ok hb.le]
    · simp only [if_neg hnn, hb, decide_true, Bool.and_self, if_true]
      exact g1
  refine ⟨st, hsolve, fun hlim => ?_⟩
  obtain ⟨c1, c2, ⟨normb, _, _, c3, _, _⟩, c4, c5, c6, c7⟩ := C38_minres heps hr realSqrt_spec hsolve
  obtain ⟨v0, v1, z0, z1, h⟩ := g3
  have hn := inv_dim h
  have npos : n ≠ 0 := by
    intro h0
    subst h0
    simp at hb
  have hstuck : st.itn = n → st.beta = 0 := by
    intro he
    by_contra hbz
    have htop : krylov (M0 - opts.shift • 1) b st.itn = ⊤ := Submodule.eq_top_of_finrank_eq (by rw [h.rank, Module.finrank_fin_fun, he])
    have := h.perp v1 (htop ▸ Submodule.mem_top)
    rw [h.unit hbz] at this
    exact one_ne_zero this
  unfold MinresState.converged
  rw [decide_eq_true_eq]
  have h6 : st.istop ≠ 6 := by
    intro h6
    have := c3.2.2.2.2.1 h6
    have := g4 (hstuck (by omega))
    omega
  have h0 : st.istop ≠ 0 := by
    intro h0
    obtain ⟨_, h | h⟩ := c6 h0
    · rw [h] at hb; simp at hb
    · omega
  have h7 : st.istop ≠ 7 := by
    intro h7
    have := c4.1 h7
    rw [hsym] at this; cases this
  simp only [List.mem_cons, List.not_mem_nil, or_false] at c2 ⊢
  omega

end Verif
