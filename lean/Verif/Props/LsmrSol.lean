import Verif.Props.Lsmr
/-
C38, C62: the outcome codes of LSMR, when it returns, and the solutions it finds.
-/
set_option autoImplicit false
namespace Verif
variable {α : Type} [Field α] [LinearOrder α] [IsStrictOrderedRing α] {m n : Nat}
open Matrix

omit [LinearOrder α] [IsStrictOrderedRing α] in
theorem krylov_of_zero (M : Matrix (Fin n) (Fin n) α) (k : Nat) : krylov M 0 k = ⊥ := by
  unfold krylov
  rw [Submodule.span_eq_bot]
  rintro x ⟨j, _, rfl⟩
  simp

/-- **C38 (LSMR).** A solve makes at most the limit of iterations; its outcome code is 0 exactly when it made none; otherwise the code is 1, 2, 3, 7 or 8 (5 is possible only
with a negative tolerance), and it tells the truth about the numbers reported. With a gradient of zero the code is 1 or 2. -/
theorem C38_lsmr {A0 : Matrix (Fin m) (Fin n) α} {b : Fin m → α} {opts : LsmrOpts α} (hd : opts.damp = 0) (hh : 0 < opts.huge) {sqrt : α → Py α}
    (hs : IsSqrt sqrt) {A : (Fin n → α) → Py (Fin m → α)} {AH : (Fin m → α) → Py (Fin n → α)} (hA : ∀ v, A v = .ok (A0 *ᵥ v))
    (hAH : ∀ u, AH u = .ok (A0ᵀ *ᵥ u)) {held : Option (Fin n → α)} {st : LsmrState α m n} {x : Option (Fin n → α)}
    (h : Lsmr.solve opts sqrt A AH b held = .ok (st, x)) :
    st.itn ≤ opts.itnlim ∧ (st.istop = 0 ↔ st.itn = 0) ∧ (st.itn = 0 ↔ A0ᵀ *ᵥ b = 0 ∨ opts.itnlim = 0) ∧
      (st.istop ∈ [0, 1, 2, 3, 7, 8] ∨ st.istop = 5 ∧ opts.atol < 0) ∧ (∃ normb, 0 ≤ normb ∧ normb * normb = normSq b ∧ st.CodeTrue opts normb) ∧
      (st.normar = 0 → 0 ≤ opts.atol → 1 ≤ st.itn → st.istop = 1 ∨ st.istop = 2) := by
  obtain ⟨normb, n0, nn, hx0, hx, ⟨g1, _, g3, g2, g4⟩ | ⟨k0, k1, kc, k2, k3, k4, k5, k6⟩⟩ := lsmrSolve_ok hd hh hs hA hAH h
  · refine ⟨g2, ⟨fun h0 => absurd h0 g4, fun h0 => by omega⟩, ⟨fun h0 => by omega, ?_⟩, ?_, ⟨normb, n0, nn, g1.code⟩, fun a b _ => g1.zero a b⟩
    · rintro (h0 | h0)
      · have := g1.post.rank
        rw [h0, krylov_of_zero, finrank_bot] at this
        omega
      · omega
    · rcases g1.codes with c | c | c
      · omega
      · left
        simp only [List.mem_cons, List.not_mem_nil, or_false] at c ⊢
        exact .inr c
      · exact .inr c
  · refine ⟨by omega, ⟨fun _ => k1, fun _ => kc⟩, ⟨fun _ => k0, fun _ => k1⟩, .inl (by rw [kc]; decide), ⟨normb, n0, nn, ?_⟩, fun _ _ h1 => by omega⟩
    unfold LsmrState.CodeTrue
    rw [kc]
    refine ⟨?_, ?_, ?_, ?_, ?_⟩ <;> intro h0 <;> omega

/-- Pythagoras for the least-squares problem. -/
theorem normal_split {A0 : Matrix (Fin m) (Fin n) α} {b : Fin m → α} {x : Fin n → α} (hg : A0ᵀ *ᵥ (b - A0 *ᵥ x) = 0) (y : Fin n → α) :
    normSq (b - A0 *ᵥ y) = normSq (b - A0 *ᵥ x) + normSq (A0 *ᵥ (y - x)) := by
  have e1 : b - A0 *ᵥ y = (b - A0 *ᵥ x) - A0 *ᵥ (y - x) := by rw [Matrix.mulVec_sub]; abel
  have e2 : (b - A0 *ᵥ x) ⬝ᵥ A0 *ᵥ (y - x) = 0 := by rw [← dot_transpose, hg]; simp
  rw [e1]
  obtain ⟨r, hr⟩ : ∃ r, r = b - A0 *ᵥ x := ⟨_, rfl⟩
  obtain ⟨p, hp⟩ : ∃ p, p = A0 *ᵥ (y - x) := ⟨_, rfl⟩
  rw [← hr, ← hp] at e2 ⊢
  have e3 : p ⬝ᵥ r = 0 := by rw [dotProduct_comm]; exact e2
  rw [normSq_eq, normSq_eq, normSq_eq, sub_dotProduct, dotProduct_sub, dotProduct_sub, e2, e3]
  ring

omit [LinearOrder α] [IsStrictOrderedRing α] in
/-- The Krylov space lies in the range of the transpose. -/
theorem krylov_range {A0 : Matrix (Fin m) (Fin n) α} {b : Fin m → α} {k : Nat} {x : Fin n → α} (h : x ∈ krylov (A0ᵀ * A0) (A0ᵀ *ᵥ b) k) :
    ∃ w, x = A0ᵀ *ᵥ w := by
  unfold krylov at h
  induction h using Submodule.span_induction with
  | mem x hx =>
    obtain ⟨j, _, rfl⟩ := hx
    cases j with
    | zero => exact ⟨b, by simp⟩
    | succ j => exact ⟨A0 *ᵥ ((A0ᵀ * A0) ^ j *ᵥ (A0ᵀ *ᵥ b)), by rw [pow_succ', ← Matrix.mulVec_mulVec, ← Matrix.mulVec_mulVec]⟩
  | zero => exact ⟨0, by simp⟩
  | add x y _ _ h1 h2 =>
    obtain ⟨w1, rfl⟩ := h1
    obtain ⟨w2, rfl⟩ := h2
    exact ⟨w1 + w2, by rw [Matrix.mulVec_add]⟩
  | smul a x _ h1 =>
    obtain ⟨w, rfl⟩ := h1
    exact ⟨a • w, by rw [Matrix.mulVec_smul]⟩

/-- **C62 (solution).** When the reported gradient norm is zero, the vector is the least-squares solution of smallest norm. As many iterations as unknowns always give
a gradient of zero. -/
theorem C62_solution {A0 : Matrix (Fin m) (Fin n) α} {b : Fin m → α} {opts : LsmrOpts α} (hd : opts.damp = 0) (hh : 0 < opts.huge) {sqrt : α → Py α}
    (hs : IsSqrt sqrt) {A : (Fin n → α) → Py (Fin m → α)} {AH : (Fin m → α) → Py (Fin n → α)} (hA : ∀ v, A v = .ok (A0 *ᵥ v))
    (hAH : ∀ u, AH u = .ok (A0ᵀ *ᵥ u)) {held : Option (Fin n → α)} {st : LsmrState α m n} {x : Option (Fin n → α)}
    (h : Lsmr.solve opts sqrt A AH b held = .ok (st, x)) :
    (st.normar = 0 → LeastSquares A0 b st.x ∧ ∀ y, LeastSquares A0 b y → normSq st.x ≤ normSq y) ∧ (st.itn = n → st.normar = 0) := by
  obtain ⟨_, _, _, hk, _, _, _, hnar, _, _, hmin⟩ := C62_lsmr hd hh hs hA hAH h
  constructor
  · intro h0
    have hg : A0ᵀ *ᵥ (b - A0 *ᵥ st.x) = 0 := by
      rw [h0, mul_zero] at hnar
      exact normSq_zero hnar.symm
    refine ⟨fun y => ?_, fun y hy => ?_⟩
    · rw [normal_split hg y]
      have := normSq_nonneg (A0 *ᵥ (y - st.x))
      linarith
    · have e1 := normal_split hg y
      have e2 := hy st.x
      have e3 : A0 *ᵥ (y - st.x) = 0 := normSq_zero (le_antisymm (by rw [← normSq_eq]; linarith) (normSq_nonneg _))
      obtain ⟨w, hw⟩ := krylov_range hk
      have e4 : st.x ⬝ᵥ (y - st.x) = 0 := by
        conv_lhs => rw [hw, dot_transpose, ← hw]
        rw [e3]; simp
      have e5 : y = (y - st.x) + st.x := by abel
      obtain ⟨d, hd'⟩ : ∃ d, d = y - st.x := ⟨_, rfl⟩
      rw [← hd'] at e4 e5
      have e6 : d ⬝ᵥ st.x = 0 := by rw [dotProduct_comm]; exact e4
      rw [e5, normSq_eq, normSq_eq, add_dotProduct, dotProduct_add, dotProduct_add, e4, e6]
      have := normSq_nonneg d
      rw [normSq_eq] at this
      linarith
  · intro hn
    by_cases h0 : st.itn = 0
    · -- no unknowns
      have hn0 : n = 0 := by omega
      subst hn0
      have : normSq (A0ᵀ *ᵥ (b - A0 *ᵥ st.x)) = 0 := by simp [normSq]
      rw [this] at hnar
      exact mul_self_eq_zero.1 hnar
    obtain ⟨normb, n0, nn, hx0, hx, ⟨g1, _, g3, g2, g4⟩ | ⟨k0, k1, _⟩⟩ := lsmrSolve_ok hd hh hs hA hAH h
    on_goal 2 => exact absurd k1 h0
    have htop : krylov (A0ᵀ * A0) (A0ᵀ *ᵥ b) st.itn = ⊤ := Submodule.eq_top_of_finrank_eq (by rw [g1.post.rank, Module.finrank_fin_fun, hn])
    obtain ⟨g, hgd⟩ : ∃ g, g = A0ᵀ *ᵥ (b - A0 *ᵥ st.x) := ⟨_, rfl⟩
    have e1 : g ⬝ᵥ (A0ᵀ * A0) *ᵥ g = 0 := by rw [hgd]; exact g1.post.opt _ (htop ▸ Submodule.mem_top)
    have e2 : A0 *ᵥ g = 0 := by
      apply normSq_zero
      rw [← Matrix.mulVec_mulVec, dotProduct_comm, dot_transpose] at e1
      exact e1
    have e3 : g ⬝ᵥ g = 0 := by
      conv_lhs => lhs; rw [hgd]
      rw [dot_transpose, e2]; simp
    rw [← hgd, normSq_eq, e3] at hnar
    exact mul_self_eq_zero.1 hnar

/-- **C62, never an exact solution.** A solve which made an iteration and returned does not satisfy the equations exactly: with a residual of zero the stopping test divides
zero by zero. -/
theorem C62_never_exact {A0 : Matrix (Fin m) (Fin n) α} {b : Fin m → α} {opts : LsmrOpts α} (hd : opts.damp = 0) (hh : 0 < opts.huge) {sqrt : α → Py α}
    (hs : IsSqrt sqrt) {A : (Fin n → α) → Py (Fin m → α)} {AH : (Fin m → α) → Py (Fin n → α)} (hA : ∀ v, A v = .ok (A0 *ᵥ v))
    (hAH : ∀ u, AH u = .ok (A0ᵀ *ᵥ u)) {held : Option (Fin n → α)} {st : LsmrState α m n} {x : Option (Fin n → α)}
    (h : Lsmr.solve opts sqrt A AH b held = .ok (st, x)) (hit : 1 ≤ st.itn) : A0 *ᵥ st.x ≠ b := by
  intro he
  obtain ⟨normb, n0, nn, hx0, hx, ⟨g1, _⟩ | ⟨_, k1, _⟩⟩ := lsmrSolve_ok hd hh hs hA hAH h
  · have := g1.post.normr
    rw [he, sub_self] at this
    have h0 : normSq (0 : Fin m → α) = 0 := by simp [normSq]
    rw [h0] at this
    exact g1.nr.ne' (mul_self_eq_zero.1 this)
  · omega

/-- **C62, failure.** Equations which have a solution, proportional to the gradient of the problem: whatever the tolerances, no solve returns. -/
theorem C62_consistent_fails {A0 : Matrix (Fin m) (Fin n) α} {b : Fin m → α} {opts : LsmrOpts α} (hd : opts.damp = 0) (hh : 0 < opts.huge)
    (hlim : 1 ≤ opts.itnlim) {sqrt : α → Py α} (hs : IsSqrt sqrt) {A : (Fin n → α) → Py (Fin m → α)} {AH : (Fin m → α) → Py (Fin n → α)}
    (hA : ∀ v, A v = .ok (A0 *ᵥ v)) (hAH : ∀ u, AH u = .ok (A0ᵀ *ᵥ u)) {c : α} (hsol : A0 *ᵥ (c • A0ᵀ *ᵥ b) = b) (hb : b ≠ 0) (held : Option (Fin n → α)) :
    ∀ r, Lsmr.solve opts sqrt A AH b held ≠ .ok r := by
  rintro ⟨st, x⟩ h
  have hne : A0ᵀ *ᵥ b ≠ 0 := by
    intro h0
    rw [h0, smul_zero, Matrix.mulVec_zero] at hsol
    exact hb hsol.symm
  have hc0 : c ≠ 0 := by
    intro h0
    rw [h0, zero_smul, Matrix.mulVec_zero] at hsol
    exact hb hsol.symm
  have hit : 1 ≤ st.itn := by
    obtain ⟨_, _, h3, _⟩ := C38_lsmr hd hh hs hA hAH h
    by_contra h0
    rcases h3.1 (by omega) with h4 | h4
    · exact hne h4
    · omega
  obtain ⟨_, _, _, hk, _, _, _, hnar, _, _, hmin⟩ := C62_lsmr hd hh hs hA hAH h
  have hmem : c • A0ᵀ *ᵥ b ∈ krylov (A0ᵀ * A0) (A0ᵀ *ᵥ b) st.itn :=
    Submodule.smul_mem _ _ (Submodule.subset_span ⟨0, by omega, by simp⟩)
  have h1 := hmin _ hmem
  rw [hsol, sub_self, Matrix.mulVec_zero] at h1
  have h0 : normSq (0 : Fin n → α) = 0 := by simp [normSq]
  rw [h0] at h1
  have h2 : A0ᵀ *ᵥ (b - A0 *ᵥ st.x) = 0 := normSq_zero (le_antisymm h1 (normSq_nonneg _))
  have h3 := normal_split h2 (c • A0ᵀ *ᵥ b)
  rw [hsol, sub_self] at h3
  have h0' : normSq (0 : Fin m → α) = 0 := by simp [normSq]
  rw [h0'] at h3
  have h4 : b - A0 *ᵥ st.x = 0 := by
    apply normSq_zero
    have e1 := normSq_nonneg (b - A0 *ᵥ st.x)
    have e2 := normSq_nonneg (A0 *ᵥ (c • A0ᵀ *ᵥ b - st.x))
    rw [← normSq_eq]; linarith
  exact C62_never_exact hd hh hs hA hAH h hit (sub_eq_zero.1 h4).symm

end Verif
