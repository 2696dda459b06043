import Verif.Lemmas.CR
import Verif.Props.GNKrylov
import Verif.Props.GNKrylovCase
import Verif.Props.MinresSol
/-
Property C73: the parameter covariance with the iterative solves of the code.
-/
set_option autoImplicit false
namespace Verif
open Matrix
variable {δ : Type}

/-- The elements of the covariance matrix, for any solver. -/
theorem covariance_elements {α : Type} [Field α] {ms : Evaluable α δ} {labels clabels : List String} {m : Nat} (h : ms.SolverReady labels clabels m) {g : GN α δ} (hg : g.Solves ms)
    {solver : GN α δ → List α → Py (List α)} {V : List (List α)} (hV : g.covariance solver = .ok V) :
    ∃ (p : Nat → Fin (g.hd.mu.values.length + g.hd.a.length) → α) (z : Nat → Nat → List α),
      (∀ j, j < g.hd.a.length → g.calcPx true (unitV (g.hd.mu.values.length + g.hd.a.length) (g.hd.mu.values.length + j)) = .ok (List.ofFn (p j))) ∧
      (∀ i j, i < g.hd.a.length → j < g.hd.a.length → solver g (List.ofFn (p j)) = .ok (z i j) ∧ (z i j).length = g.hd.mu.values.length + g.hd.a.length) ∧
      ∀ i j, i < g.hd.a.length → j < g.hd.a.length → (V.getD i []).getD j 0 =
        (∑ d, p i d * (z i j).getD d 0 + ∑ d, p j d * (z j i).getD d 0) / 2 := by
  obtain ⟨N, n, hs⟩ := hg.setup h
  obtain ⟨js, hj⟩ := hs.shaped
  obtain ⟨s1, s2, s3⟩ := hs.sizes
  have hNv := GN.prodCtx_var hj.ctx_eq
  change pyLast g.hd.mu.idx.idx = .ok (N.sum + n) at hNv
  rw [← s1] at hNv
  generalize hn1 : g.hd.mu.values.length = Nv at *
  generalize hn2 : g.hd.a.length = nl at *
  have hP : ∀ j, ∃ v : Fin (Nv + nl) → α, g.calcPx true (unitV (Nv + nl) (Nv + j)) = .ok (List.ofFn v) := by
    intro j
    have := calcPx_bwd hj (y := unitV (Nv + nl) (Nv + j)) (by simp [unitV, s1, s2])
    rw [this, vector_eq_ofFn]
    have e : N.sum + n + labels.length = Nv + nl := by rw [s1, s2]
    rw [show (N.sum + n + labels.length) = Nv + nl from e]
    exact ⟨_, rfl⟩
  choose p hp using hP
  unfold GN.covariance at hV
  obtain ⟨W, hW, hV⟩ := bind_ok.1 hV
  rw [pure_ok] at hV
  rw [hn2] at hW hV
  have hel : ∀ i j, i < nl → j < nl → ∃ z, solver g (List.ofFn (p j)) = .ok z ∧ z.length = Nv + nl ∧ (W.getD i []).getD j 0 = ∑ d, p i d * z.getD d 0 := by
    intro i j hi hj'
    obtain ⟨row, hr2, hr1⟩ := (mapM_ok_get hW).2 _ _ (show (List.range nl)[i]? = some i by simp [hi])
    obtain ⟨e, he2, he1⟩ := (mapM_ok_get hr2).2 _ _ (show (List.range nl)[j]? = some j by simp [hj'])
    have hWij : (W.getD i []).getD j 0 = e := by simp [List.getD, hr1, he1]
    unfold GN.covarianceIJ at he2
    rw [hNv] at he2
    simp only [bind, Except.bind] at he2
    rw [hn2, unitVec_eq (show Nv + i < Nv + nl by omega)] at he2
    simp only [] at he2
    rw [unitVec_eq (show Nv + j < Nv + nl by omega)] at he2
    simp only [hp] at he2
    obtain ⟨z, hz, he2⟩ := bind_ok.1 he2
    have hzl : z.length = Nv + nl := by
      unfold npDot at he2
      by_contra hne
      rw [if_neg (by simpa [eq_comm] using hne)] at he2
      cases he2
    refine ⟨z, hz, hzl, ?_⟩
    rw [npDot_vector (List.length_ofFn) hzl] at he2
    rw [hWij, ← Except.ok.inj he2, Finset.sum_range]
    refine Finset.sum_congr rfl fun d _ => ?_
    rw [ent_ofFn]
  choose z hz using hel
  refine ⟨p, fun i j => if hh : i < nl ∧ j < nl then z i j hh.1 hh.2 else [], fun j _ => hp j, ?_, ?_⟩
  · intro i j hi hj'
    simp only [hi, hj', and_self, dite_true]
    exact ⟨(hz i j hi hj').1, (hz i j hi hj').2.1⟩
  · intro i j hi hj'
    simp only [hi, hj', and_self, dite_true]
    rw [← hV, ← (hz i j hi hj').2.2, ← (hz j i hj' hi).2.2]
    simp [List.getD, hi, hj']

/-- The normal-equation operator is the matrix `Jᵀ J`. -/
theorem calcHx_isMatrix {α : Type} [Field α] [LinearOrder α] [IsStrictOrderedRing α] {ms : Evaluable α δ} {labels clabels : List String} {m : Nat} (h : ms.SolverReady labels clabels m) {g : GN α δ} (hg : g.Solves ms)
    {J : Matrix (Fin (g.hd.mu.values.length + g.hd.mu.ks.length)) (Fin (g.hd.mu.values.length + g.hd.a.length)) α} (hJ : g.IsJacobian J)
    (v : Fin (g.hd.mu.values.length + g.hd.a.length) → α) : g.calcHx (List.ofFn v) = .ok (List.ofFn ((Jᵀ * J) *ᵥ v)) := by
  obtain ⟨hx', _, u, h1, _, h3, h4, _⟩ := C29_hessian h hg (List.ofFn v) (List.ofFn v) (by simp) (by simp)
  rw [hJ.1 v] at h3
  cases h3
  rw [hJ.2] at h4
  cases h4
  rw [h1, mulVec_mulVec]

/-- A solve that returns with a symmetric operator and a right-hand side which is not zero has made an iteration. -/
theorem minres_iterates {n : Nat} {M : Matrix (Fin n) (Fin n) ℝ} (hM : M.IsSymm) {opts : MinresOpts ℝ} (heps : 0 < opts.eps) (hc : 0 ≤ opts.cubeRootEps) (hlim : 1 ≤ opts.itnlim)
    {sqrt : ℝ → Py ℝ} {A : (Fin n → ℝ) → Py (Fin n → ℝ)} (hA : ∀ v, A v = .ok (M *ᵥ v)) {probes : List (Fin n → ℝ)} {b : Fin n → ℝ} (hb : 0 < b ⬝ᵥ b) {st : MinresState ℝ n}
    (h : Minres.solve opts sqrt A probes b = .ok st) : 1 ≤ st.itn := by
  unfold Minres.solve at h
  obtain ⟨beta1, h1, h⟩ := bind_ok.1 h
  obtain ⟨sym, h2, h⟩ := bind_ok.1 h
  have hsym : sym = true := by
    unfold Minres.symmetric at h2
    split at h2
    · rw [checkSymmetric_symm hM heps.le hc hA] at h2
      cases h2; rfl
    · cases h2; rfl
  subst hsym
  simp only [Bool.true_and, decide_eq_true_eq, hb, if_true] at h
  rw [if_neg (not_lt.2 hb.le)] at h
  obtain ⟨h3, _, _, h4⟩ := loop_induct (opts := opts) (sqrt := sqrt) (A := A) (beta1 := beta1) (fun st => 0 < st.istop → 1 ≤ st.itn) (by
      intro st r' _ _ _ ht _
      have := turn_itn st r'.1 r'.2 ht
      omega) opts.itnlim (fun h => absurd h (by simp [Minres.start])) (.inl rfl) (Nat.sub_le _ _) h
  rcases h4 with h4 | h4
  · omega
  · exact h3 h4

/-- Cauchy-Schwarz with square roots. -/
theorem dot_le_norms {n : Nat} (u v : Fin n → ℝ) : |u ⬝ᵥ v| ≤ Real.sqrt (normSq u) * Real.sqrt (normSq v) := by
  rw [← Real.sqrt_mul (normSq_nonneg u)]
  apply Real.abs_le_sqrt
  have := Finset.sum_mul_sq_le_sq_mul_sq Finset.univ u v
  simp only [normSq, dotProduct]
  simpa [pow_two] using this

/-- The right-hand sides of the solves are not zero, as the preconditioner is invertible. -/
theorem px_ne_zero {α : Type} [Field α] {ms : Evaluable α δ} {labels clabels : List String} {m : Nat} (h : ms.SolverReady labels clabels m) {g : GN α δ} (hg : g.Solves ms)
    (hS : ∀ v, v.length = g.hd.a.length → matTVec g.S v = .ok (List.replicate g.hd.a.length 0) → v = List.replicate g.hd.a.length 0) {j : Nat} (hjl : j < g.hd.a.length)
    {p : Fin (g.hd.mu.values.length + g.hd.a.length) → α}
    (hp : g.calcPx true (unitV (g.hd.mu.values.length + g.hd.a.length) (g.hd.mu.values.length + j)) = .ok (List.ofFn p)) : p ≠ 0 := by
  rintro rfl
  obtain ⟨N, n, hs⟩ := hg.setup h
  obtain ⟨js, hj⟩ := hs.shaped
  obtain ⟨s1, s2, s3⟩ := hs.sizes
  have hSl : g.S.length = g.hd.a.length := by rw [hj.S_len, s2]
  have hb := calcPx_bwd hj (y := unitV (g.hd.mu.values.length + g.hd.a.length) (g.hd.mu.values.length + j)) (by simp [unitV, s1, s2])
  rw [hp] at hb
  have hb := Except.ok.inj hb
  have hv := hS (unitV g.hd.a.length j) (by simp [unitV]) (by
    rw [matTVec_eq (by simp [unitV, hSl]), hSl]
    congr 1
    have : List.replicate g.hd.a.length (0 : α) = vector g.hd.a.length fun _ => 0 := by simp [vector]
    rw [this]
    apply vector_congr
    intro c hc
    rw [dot_unitV hjl fun r => ent (g.S.getD r []) c]
    have e : ent (List.ofFn (0 : Fin (g.hd.mu.values.length + g.hd.a.length) → α)) (N.sum + n + c) = _ := congrArg (fun l => ent l (N.sum + n + c)) hb
    rw [ent_vector (by show N.sum + n + c < N.sum + n + labels.length; omega)] at e
    rw [show (N.sum + n + labels.length) = g.hd.mu.values.length + g.hd.a.length by rw [s1, s2], dot_unitV (by omega) fun r => g.preM (N.sum + n) r (N.sum + n + c)] at e
    unfold GN.preM at e
    rw [if_neg (by omega), if_pos (by omega), s1, Nat.add_sub_cancel_left, Nat.add_sub_cancel_left] at e
    rw [← e]
    simp [ent, List.getD, hc])
  have : ent (unitV g.hd.a.length j : List α) j = ent (List.replicate g.hd.a.length 0) j := by rw [hv]
  rw [ent_unitV hjl] at this
  simp [ent, List.getD, hjl] at this

theorem normSq_pos {n : Nat} {v : Fin n → ℝ} (h : v ≠ 0) : 0 < normSq v := by
  rcases (normSq_nonneg v).lt_or_eq with h' | h'
  · exact h'
  · exact absurd (normSq_zero h'.symm) h

/-- What a Krylov vector with the smallest residual tells of `bᵀ M⁻¹ b`: it is positive, and no larger. -/
theorem best_quadratic {n : Nat} {M : Matrix (Fin n) (Fin n) ℝ} (hM : M.IsSymm) (hpos : ∀ v, v ≠ 0 → 0 < v ⬝ᵥ (M *ᵥ v)) {b x z : Fin n → ℝ} (hb : b ≠ 0) {k : Nat} (hk : 1 ≤ k)
    (hx : x ∈ krylov M b k) (hbest : ∀ y ∈ krylov M b k, normSq (b - M *ᵥ x) ≤ normSq (b - M *ᵥ y)) (hz : M *ᵥ z = b) : 0 < b ⬝ᵥ x ∧ b ⬝ᵥ x ≤ b ⬝ᵥ z := by
  have hr := best_dot_residual hM hpos hx hbest
  have hb' : b = (b - M *ᵥ x) + M *ᵥ x := by module
  constructor
  · have hx0 : x ≠ 0 := by
      rintro rfl
      have hbb := hpos b hb
      have hMb : M *ᵥ b ≠ 0 := by
        intro h0; rw [h0] at hbb; simp at hbb
      have hq := normSq_pos hMb
      obtain ⟨c, hc⟩ : ∃ c, c = (b ⬝ᵥ (M *ᵥ b)) / normSq (M *ᵥ b) := ⟨_, rfl⟩
      have h1 := hbest (c • b) (Submodule.smul_mem _ _ (krylov_b hk))
      rw [mulVec_zero, sub_zero, mulVec_smul, normSq_eq, normSq_eq, sub_dotProduct, dotProduct_sub, dotProduct_sub, smul_dotProduct, dotProduct_smul, dotProduct_smul, smul_dotProduct,
        dotProduct_comm (M *ᵥ b) b, ← normSq_eq (M *ᵥ b)] at h1
      simp only [smul_eq_mul] at h1
      have h2 : c * normSq (M *ᵥ b) = b ⬝ᵥ (M *ᵥ b) := by rw [hc]; field_simp
      have h3 : 0 < c := by rw [hc]; positivity
      nlinarith [mul_pos h3 hbb]
    have h1 : b ⬝ᵥ x = x ⬝ᵥ (b - M *ᵥ x) + x ⬝ᵥ (M *ᵥ x) := by rw [dotProduct_sub, dotProduct_comm b x]; ring
    have := hpos x hx0
    linarith
  · have h1 : b ⬝ᵥ z - b ⬝ᵥ x = (z - x) ⬝ᵥ (M *ᵥ (z - x)) + x ⬝ᵥ (b - M *ᵥ x) := by
      have e1 : x ⬝ᵥ (M *ᵥ z) = x ⬝ᵥ b := by rw [hz]
      have e2 : z ⬝ᵥ (M *ᵥ x) = b ⬝ᵥ x := by rw [symm_dot hM, hz]
      have e3 : z ⬝ᵥ (M *ᵥ z) = b ⬝ᵥ z := by rw [hz, dotProduct_comm]
      rw [mulVec_sub, sub_dotProduct, dotProduct_sub, dotProduct_sub, dotProduct_sub, e1, e2, e3, dotProduct_comm x b]
      ring
    have h2 : 0 ≤ (z - x) ⬝ᵥ (M *ᵥ (z - x)) := by
      by_cases h0 : z - x = 0
      · rw [h0]; simp
      · exact (hpos _ h0).le
    linarith

/-- The error of an inner product with an approximate solution. -/
theorem solve_error {n : Nat} {M : Matrix (Fin n) (Fin n) ℝ} {lam : ℝ} (hl : 0 < lam) (hbd : ∀ v, lam * lam * normSq v ≤ normSq (M *ᵥ v)) {b c x z : Fin n → ℝ} (hz : M *ᵥ z = b) :
    |c ⬝ᵥ x - c ⬝ᵥ z| ≤ Real.sqrt (normSq c) * Real.sqrt (normSq (b - M *ᵥ x)) / lam := by
  rw [← dotProduct_sub]
  refine (dot_le_norms c (x - z)).trans ?_
  rw [mul_div_assoc]
  refine mul_le_mul_of_nonneg_left ?_ (Real.sqrt_nonneg _)
  rw [le_div_iff₀ hl]
  have h1 := hbd (x - z)
  have h2 : normSq (M *ᵥ (x - z)) = normSq (b - M *ᵥ x) := by
    rw [mulVec_sub, hz, ← normSq_neg]; congr 1; module
  rw [h2] at h1
  apply Real.le_sqrt_of_sq_le
  rw [mul_pow, Real.sq_sqrt (normSq_nonneg _)]
  linarith [h1]

/-- **C73.** The parameter covariance computed with the iterative solver of the code. Let `Jᵀ J` be bounded below by `lam` (and the machine precision of the solver no larger),
and `cov j` the exact columns of the inverse of the Hessian. Whenever the computation returns: every element is as far from the exact covariance as the residuals of the two solves
allow; these residuals are the smallest possible for the number of iterations made; and the variances reported are positive and never larger than the exact ones. -/
theorem C73_covariance {ms : Evaluable ℝ δ} {labels clabels : List String} {m : Nat} (h : ms.SolverReady labels clabels m) {g : GN ℝ δ} (hg : g.Solves ms)
    (hS : ∀ v, v.length = g.hd.a.length → matTVec g.S v = .ok (List.replicate g.hd.a.length 0) → v = List.replicate g.hd.a.length 0)
    {J : Matrix (Fin (g.hd.mu.values.length + g.hd.mu.ks.length)) (Fin (g.hd.mu.values.length + g.hd.a.length)) ℝ} (hJ : g.IsJacobian J)
    {lam : ℝ} (hl : 0 < lam) (hbd : ∀ v, lam * normSq v ≤ normSq (J *ᵥ v))
    {o : MinresOpts ℝ} (ho : o.shift = 0 ∧ 0 < o.eps ∧ o.eps ≤ lam ∧ 0 ≤ o.cubeRootEps ∧ 0 ≤ o.rtol) {probes : (n : Nat) → List (Fin n → ℝ)}
    {V : List (List ℝ)} (hV : g.covariance (GN.minresObject o realSqrt probes) = .ok V)
    {cov : Nat → List ℝ} (hcov : ∀ j, j < g.hd.a.length → (cov j).length = g.hd.mu.values.length + g.hd.a.length ∧
      ({ g with S := identS g.hd.a.length } : GN ℝ δ).calcHx (cov j) = .ok (unitV (g.hd.mu.values.length + g.hd.a.length) (g.hd.mu.values.length + j))) :
    ∃ b x : Nat → Fin (g.hd.mu.values.length + g.hd.a.length) → ℝ,
      (∀ j, j < g.hd.a.length → g.calcPx true (unitV (g.hd.mu.values.length + g.hd.a.length) (g.hd.mu.values.length + j)) = .ok (List.ofFn (b j)) ∧
        GN.minresObject o realSqrt probes g (List.ofFn (b j)) = .ok (List.ofFn (x j)) ∧ ∃ k, 1 ≤ k ∧ k ≤ 500 ∧ x j ∈ krylov (Jᵀ * J) (b j) k ∧ ∀ y ∈ krylov (Jᵀ * J) (b j) k, normSq (b j - (Jᵀ * J) *ᵥ x j) ≤ normSq (b j - (Jᵀ * J) *ᵥ y)) ∧
      (∀ i j, i < g.hd.a.length → j < g.hd.a.length → |(V.getD i []).getD j 0 - (cov j).getD (g.hd.mu.values.length + i) 0| ≤
        (Real.sqrt (normSq (b i)) * Real.sqrt (normSq (b j - (Jᵀ * J) *ᵥ x j)) + Real.sqrt (normSq (b j)) * Real.sqrt (normSq (b i - (Jᵀ * J) *ᵥ x i))) / (2 * lam)) ∧
      ∀ i, i < g.hd.a.length → 0 < (V.getD i []).getD i 0 ∧ (V.getD i []).getD i 0 ≤ (cov i).getD (g.hd.mu.values.length + i) 0 := by
  obtain ⟨ho1, ho2, ho3, ho4, ho5⟩ := ho
  obtain ⟨N, n, hs⟩ := hg.setup h
  obtain ⟨js, hj⟩ := hs.shaped
  obtain ⟨s1, s2, s3⟩ := hs.sizes
  have hNv : pyLast g.hd.mu.idx.idx = .ok g.hd.mu.values.length := by rw [s1]; exact GN.prodCtx_var hj.ctx_eq
  obtain ⟨H, hH⟩ : ∃ H, H = Jᵀ * J := ⟨_, rfl⟩
  have hHx := fun v => calcHx_isMatrix h hg hJ v
  rw [← hH] at hHx ⊢
  have hsym : H.IsSymm := by rw [hH]; unfold Matrix.IsSymm; rw [transpose_mul, transpose_transpose]
  have hquad : ∀ v, v ⬝ᵥ (H *ᵥ v) = normSq (J *ᵥ v) := by
    intro v
    rw [hH, ← mulVec_mulVec, mulVec_transpose, dotProduct_comm, ← dotProduct_mulVec]
    rfl
  have hpos : ∀ v, v ≠ 0 → 0 < v ⬝ᵥ (H *ᵥ v) := by
    intro v hv
    rw [hquad]
    exact (mul_pos hl (normSq_pos hv)).trans_le (hbd v)
  have hlow : ∀ v, lam * lam * normSq v ≤ normSq (H *ᵥ v) := by
    intro v
    by_cases hv : v = 0
    · rw [hv]; simp [normSq]
    have h0 := normSq_pos hv
    have h1 := hbd v
    rw [← hquad] at h1
    have h2 := (le_abs_self _).trans (dot_le_norms v (H *ᵥ v))
    have h3 : (lam * normSq v) ^ 2 ≤ normSq v * normSq (H *ᵥ v) := by
      have : lam * normSq v ≤ Real.sqrt (normSq v) * Real.sqrt (normSq (H *ᵥ v)) := h1.trans h2
      have h4 := pow_le_pow_left₀ (by positivity) this 2
      rwa [mul_pow (Real.sqrt _), Real.sq_sqrt (normSq_nonneg _), Real.sq_sqrt (normSq_nonneg _)] at h4
    have h5 : normSq v * (lam * lam * normSq v) ≤ normSq v * normSq (H *ᵥ v) := by nlinarith
    exact le_of_mul_le_mul_left h5 h0
  -- the computation
  obtain ⟨p, z, hp, hz, hVe⟩ := covariance_elements h hg hV
  have hsol : ∀ j, j < g.hd.a.length → ∃ (x : Fin (g.hd.mu.values.length + g.hd.a.length) → ℝ) (k : Nat), GN.minresObject o realSqrt probes g (List.ofFn (p j)) = .ok (List.ofFn x) ∧
      1 ≤ k ∧ k ≤ 500 ∧ x ∈ krylov H (p j) k ∧ ∀ y ∈ krylov H (p j) k, normSq (p j - H *ᵥ x) ≤ normSq (p j - H *ᵥ y) := by
    intro j hjl
    have hm := (hz j j hjl hjl).1
    have hm' := hm
    unfold GN.minresObject at hm
    rw [hNv] at hm
    simp only [bind, Except.bind] at hm
    rw [toVec_ofFn] at hm
    simp only [] at hm
    obtain ⟨st, hst, hm⟩ := bind_ok.1 hm
    have hb0 := px_ne_zero h hg hS hjl (hp j hjl)
    have hA := operator_ok hHx
    have hit := minres_iterates (opts := { o with itnlim := 500 }) hsym ho2 ho4 (by show 1 ≤ 500; omega) hA (normSq_pos hb0) hst
    obtain ⟨_, m2, _, _, m5, _⟩ := C61_minres (opts := { o with itnlim := 500 }) hsym ho2 (by
      intro v
      show o.eps * o.eps * normSq v ≤ normSq ((H - o.shift • 1) *ᵥ v)
      rw [ho1, zero_smul, sub_zero]
      refine le_trans ?_ (hlow v)
      refine mul_le_mul_of_nonneg_right ?_ (normSq_nonneg v)
      exact mul_self_le_mul_self ho2.le ho3) realSqrt_spec hA hst hit
    have hlim := (C38_minres (opts := { o with itnlim := 500 }) ho2 ho5 realSqrt_spec hst).1
    have e : H - ({ o with itnlim := 500 } : MinresOpts ℝ).shift • 1 = H := by
      show H - o.shift • 1 = H
      rw [ho1, zero_smul, sub_zero]
    rw [e] at m2 m5
    refine ⟨st.x, st.itn, ?_, hit, hlim, m2, m5⟩
    rw [hm', ← hm]
    rfl
  choose! x k hx using hsol
  -- exact solutions
  have hHinj : ∀ v, H *ᵥ v = 0 → v = 0 := by
    intro v hv
    by_contra hne
    have := hpos v hne
    rw [hv] at this
    simp at this
  have hex : ∀ b : List ℝ, b.length = g.hd.mu.values.length + g.hd.a.length → ∃! z, z.length = b.length ∧ g.calcHx z = .ok b := by
    apply C31_solvable h hg
    intro v hv hv0
    rw [← ofFn_getD hv, hJ.1] at hv0
    have h1 : J *ᵥ (fun i => v.getD i 0) = 0 := by
      funext r
      have := congrArg (fun l => ent l (r : Nat)) (Except.ok.inj hv0)
      simp only [ent_ofFn] at this
      rw [this]
      simp [ent, List.getD]
    have h2 : normSq (fun i : Fin (g.hd.mu.values.length + g.hd.a.length) => v.getD i 0) = 0 := by
      have := hbd (fun i => v.getD i 0)
      rw [h1] at this
      have h0 : normSq (0 : Fin (g.hd.mu.values.length + g.hd.mu.ks.length) → ℝ) = 0 := by simp [normSq]
      rw [h0] at this
      exact le_antisymm (by nlinarith [normSq_nonneg (fun i : Fin (g.hd.mu.values.length + g.hd.a.length) => v.getD i 0)]) (normSq_nonneg _)
    rw [← ofFn_getD hv, normSq_zero h2, List.length_ofFn]
    exact List.ofFn_const _ (0 : ℝ)
  classical
  let E : GN ℝ δ → List ℝ → Py (List ℝ) := fun _ b => if hh : ∃ z : List ℝ, z.length = b.length ∧ g.calcHx z = .ok b then .ok hh.choose else .error .valueError
  have hE : ∀ b : List ℝ, b.length = g.hd.mu.values.length + g.hd.a.length → ∃ z, E g b = .ok z ∧ z.length = b.length ∧ g.calcHx z = .ok b := by
    intro b hb
    have hh : ∃ z : List ℝ, z.length = b.length ∧ g.calcHx z = .ok b := (hex b hb).exists
    exact ⟨hh.choose, by simp only [E, dif_pos hh], hh.choose_spec.1, hh.choose_spec.2⟩
  obtain ⟨V', hV', hVc⟩ := C31_covariance two_ne_zero h hg hS E hE cov hcov
  obtain ⟨p', z', hp', hz', hVe'⟩ := covariance_elements h hg hV'
  have hpp : ∀ j, j < g.hd.a.length → p' j = p j := by
    intro j hjl
    have := (hp' j hjl).symm.trans (hp j hjl)
    exact List.ofFn_injective (Except.ok.inj this)
  obtain ⟨w, hw⟩ : ∃ w : Nat → Nat → Fin (g.hd.mu.values.length + g.hd.a.length) → ℝ, w = fun i j (d : Fin (g.hd.mu.values.length + g.hd.a.length)) => (z' i j).getD d 0 := ⟨_, rfl⟩
  have hwx : ∀ i j, i < g.hd.a.length → j < g.hd.a.length → H *ᵥ w i j = p j := by
    intro i j hi hjl
    obtain ⟨e1, e2⟩ := hz' i j hi hjl
    obtain ⟨z0, f1, f2, f3⟩ := hE (List.ofFn (p' j)) (by simp)
    rw [f1] at e1
    cases e1
    rw [hpp j hjl, ← ofFn_getD e2, hHx] at f3
    have := List.ofFn_injective (Except.ok.inj f3)
    rw [hw]; exact this
  have hww : ∀ i j, i < g.hd.a.length → j < g.hd.a.length → w i j = w j j := by
    intro i j hi hjl
    have := hHinj (w i j - w j j) (by rw [mulVec_sub, hwx i j hi hjl, hwx j j hjl hjl, sub_self])
    exact sub_eq_zero.1 this
  have hc : ∀ i j, i < g.hd.a.length → j < g.hd.a.length → (cov j).getD (g.hd.mu.values.length + i) 0 = (p i ⬝ᵥ w j j + p j ⬝ᵥ w i i) / 2 := by
    intro i j hi hjl
    rw [← hVc i j hi hjl, hVe' i j hi hjl, hpp i hi, hpp j hjl, ← hww i j hi hjl, ← hww j i hjl hi, hw]
    rfl
  have hv : ∀ i j, i < g.hd.a.length → j < g.hd.a.length → (V.getD i []).getD j 0 = (p i ⬝ᵥ x j + p j ⬝ᵥ x i) / 2 := by
    intro i j hi hjl
    have e : ∀ i j, i < g.hd.a.length → j < g.hd.a.length → z i j = List.ofFn (x j) := by
      intro i j hi hjl
      have := (hz i j hi hjl).1.symm.trans (hx j hjl).1
      exact Except.ok.inj this
    rw [hVe i j hi hjl, e i j hi hjl, e j i hjl hi]
    simp only [getD_ofFn]
    rfl
  refine ⟨p, x, fun j hjl => ⟨hp j hjl, (hx j hjl).1, k j, (hx j hjl).2.1, (hx j hjl).2.2.1, (hx j hjl).2.2.2.1, (hx j hjl).2.2.2.2⟩, ?_, ?_⟩
  · intro i j hi hjl
    rw [hv i j hi hjl, hc i j hi hjl]
    have e1 := solve_error hl hlow (c := p i) (x := x j) (hwx j j hjl hjl)
    have e2 := solve_error hl hlow (c := p j) (x := x i) (hwx i i hi hi)
    have e3 : (p i ⬝ᵥ x j + p j ⬝ᵥ x i) / 2 - (p i ⬝ᵥ w j j + p j ⬝ᵥ w i i) / 2 = ((p i ⬝ᵥ x j - p i ⬝ᵥ w j j) + (p j ⬝ᵥ x i - p j ⬝ᵥ w i i)) / 2 := by ring
    rw [e3, abs_div, abs_two]
    have e4 := abs_add_le (p i ⬝ᵥ x j - p i ⬝ᵥ w j j) (p j ⬝ᵥ x i - p j ⬝ᵥ w i i)
    have e5 : ∀ a b : ℝ, (a + b) / (2 * lam) = (a / lam + b / lam) / 2 := by intro a b; field_simp
    rw [e5]
    linarith
  · intro i hi
    obtain ⟨_, q1, q2, q3, q4⟩ := hx i hi
    obtain ⟨r1, r2⟩ := best_quadratic hsym hpos (px_ne_zero h hg hS hi (hp i hi)) q1 q3 q4 (hwx i i hi hi)
    rw [hv i i hi hi, hc i i hi hi]
    constructor <;> linarith

/-- **C73 (the computation returns).** When no right-hand side is an eigenvector of `Jᵀ J` up to ten times the machine precision (see `C38_eigenvector_fails` for those). -/
theorem C73_returns {ms : Evaluable ℝ δ} {labels clabels : List String} {m : Nat} (h : ms.SolverReady labels clabels m) {g : GN ℝ δ} (hg : g.Solves ms)
    {J : Matrix (Fin (g.hd.mu.values.length + g.hd.mu.ks.length)) (Fin (g.hd.mu.values.length + g.hd.a.length)) ℝ} (hJ : g.IsJacobian J)
    {o : MinresOpts ℝ} (ho : o.shift = 0 ∧ 0 < o.eps ∧ 0 ≤ o.cubeRootEps ∧ 0 ≤ o.rtol) (hbd : BoundedBelow (Jᵀ * J) o.eps) (probes : (n : Nat) → List (Fin n → ℝ))
    (hfar : ∀ j, j < g.hd.a.length → ∃ b, g.calcPx true (unitV (g.hd.mu.values.length + g.hd.a.length) (g.hd.mu.values.length + j)) = .ok (List.ofFn b) ∧ FarFromEigenvector (Jᵀ * J) b o.eps) :
    ∃ V, g.covariance (GN.minresObject o realSqrt probes) = .ok V := by
  obtain ⟨ho1, ho2, ho4, ho5⟩ := ho
  obtain ⟨N, n, hs⟩ := hg.setup h
  obtain ⟨js, hj⟩ := hs.shaped
  obtain ⟨s1, s2, s3⟩ := hs.sizes
  have hNv : pyLast g.hd.mu.idx.idx = .ok g.hd.mu.values.length := by rw [s1]; exact GN.prodCtx_var hj.ctx_eq
  have hHx := fun v => calcHx_isMatrix h hg hJ v
  have hsym : (Jᵀ * J).IsSymm := by unfold Matrix.IsSymm; rw [transpose_mul, transpose_transpose]
  choose! b hb using hfar
  have hel : ∀ i j, i < g.hd.a.length → j < g.hd.a.length → ∃ e, g.covarianceIJ (GN.minresObject o realSqrt probes) i j = .ok e := by
    intro i j hi hjl
    have e0 : Jᵀ * J - ({ o with itnlim := 500 } : MinresOpts ℝ).shift • 1 = Jᵀ * J := by
      show Jᵀ * J - o.shift • 1 = Jᵀ * J
      rw [ho1, zero_smul, sub_zero]
    obtain ⟨st, hst, _⟩ := C61_minres_returns (opts := { o with itnlim := 500 }) hsym ho2 ho5 ho4 (by rw [e0]; exact hbd) (operator_ok hHx) (probes _) (b := b j) (by rw [e0]; exact (hb j hjl).2)
    have hm : GN.minresObject o realSqrt probes g (List.ofFn (b j)) = .ok (List.ofFn st.x) := by
      unfold GN.minresObject
      rw [hNv]
      simp only [bind, Except.bind]
      rw [toVec_ofFn]
      simp only [hst]
      rfl
    refine ⟨_, bind_ok.2 ⟨_, hNv, bind_ok.2 ⟨_, unitVec_eq (show g.hd.mu.values.length + i < g.hd.mu.values.length + g.hd.a.length by omega),
      bind_ok.2 ⟨_, unitVec_eq (show g.hd.mu.values.length + j < g.hd.mu.values.length + g.hd.a.length by omega), bind_ok.2 ⟨_, (hb j hjl).1, bind_ok.2 ⟨_, hm, bind_ok.2 ⟨_, (hb i hi).1,
      npDot_vector (List.length_ofFn) (List.length_ofFn)⟩⟩⟩⟩⟩⟩⟩
  have hrow : ∀ i, i < g.hd.a.length → ∃ r, ((List.range g.hd.a.length).mapM fun j => g.covarianceIJ (GN.minresObject o realSqrt probes) i j) = .ok r := by
    intro i hi
    exact mapM_total fun j hjl => hel i j hi (List.mem_range.1 hjl)
  obtain ⟨W, hW⟩ : ∃ W, ((List.range g.hd.a.length).mapM fun i => (List.range g.hd.a.length).mapM fun j => g.covarianceIJ (GN.minresObject o realSqrt probes) i j) = .ok W :=
    mapM_total fun i hi => hrow i (List.mem_range.1 hi)
  exact ⟨_, bind_ok.2 ⟨_, hW, rfl⟩⟩

/-! ### A concrete case -/

theorem Fixture.pairG_calcPx {α : Type} [Field α] (r0 r1 x0 x1 k0 k1 a y0 y1 y2 y3 y4 v0 v1 v2 v3 v4 : α) :
    (Fixture.pairG r0 r1 x0 x1 k0 k1 a [y0, y1, y2, y3, y4]).calcPx true [v0, v1, v2, v3, v4] = .ok [v0, v1, v2, v3, 1 * v4 + 0] := by
  kernel_rfl

open Fixture in
/-- Two match-ups of a reference with a sensor with one offset: the exact variance of the offset is one. The computation returns, and the variance it reports is positive and at
most one. -/
theorem C73_case {r0 r1 x0 x1 k0 k1 a : ℝ} {o : MinresOpts ℝ} (ho : o.shift = 0 ∧ 0 < o.eps ∧ o.eps ≤ 1 / 100 ∧ 0 ≤ o.cubeRootEps ∧ 0 ≤ o.rtol) (probes : (n : Nat) → List (Fin n → ℝ)) :
    ∃ v, (pairG r0 r1 x0 x1 k0 k1 a [r0, r1, x0, x1, a]).covariance (GN.minresObject o realSqrt probes) = .ok [[v]] ∧ 0 < v ∧ v ≤ 1 := by
  have hr := pairCase_ready r0 r1 x0 x1 k0 k1 a
  have hg := pairG_solves r0 r1 x0 x1 k0 k1 a (l := [r0, r1, x0, x1, a]) rfl
  let J : Matrix (Fin 6) (Fin 5) ℝ := !![1, 0, 0, 0, 0; 0, 1, 0, 0, 0; 0, 0, 1, 0, 0; 0, 0, 0, 1, 0; -1, 0, 0, 0, 1; 0, -1, 0, 0, 1]
  have hJv : ∀ v : Fin 5 → ℝ, J *ᵥ v = ![v 0, v 1, v 2, v 3, -v 0 + v 4, -v 1 + v 4] := by
    intro v
    funext i
    fin_cases i <;> simp [J, mulVec, dotProduct, Fin.sum_univ_five]
  have hJT : ∀ u : Fin 6 → ℝ, Jᵀ *ᵥ u = ![u 0 - u 4, u 1 - u 5, u 2, u 3, u 4 + u 5] := by
    intro u
    funext i
    fin_cases i <;> simp [J, mulVec, dotProduct, Fin.sum_univ_six, transpose_apply] <;> ring
  have hJ : (pairG r0 r1 x0 x1 k0 k1 a [r0, r1, x0, x1, a]).IsJacobian J := by
    constructor
    · intro v
      have e : List.ofFn v = [v 0, v 1, v 2, v 3, v 4] := by simp [List.ofFn_succ]
      rw [e, pairG_getJPx, hJv]
      simp [List.ofFn_succ]
    · intro v
      have e : List.ofFn v = [v 0, v 1, v 2, v 3, v 4, v 5] := by simp [List.ofFn_succ]
      rw [e, pairG_getJPTx, hJT]
      simp [List.ofFn_succ]
      constructor <;> ring
  have hbd : ∀ v, 1 / 10 * normSq v ≤ normSq (J *ᵥ v) := by
    intro v
    rw [hJv]
    simp only [normSq, Fin.sum_univ_five, Fin.sum_univ_six, Matrix.cons_val]
    nlinarith [sq_nonneg (v 0), sq_nonneg (v 1), sq_nonneg (v 2), sq_nonneg (v 3), sq_nonneg (2 * v 4 - 3 * v 0), sq_nonneg (2 * v 4 - 3 * v 1)]
  have hHv : ∀ v : Fin 5 → ℝ, (Jᵀ * J) *ᵥ v = ![2 * v 0 - v 4, 2 * v 1 - v 4, v 2, v 3, 2 * v 4 - v 0 - v 1] := by
    intro v
    rw [← mulVec_mulVec, hJv, hJT]
    funext i
    fin_cases i <;> simp <;> ring
  obtain ⟨ho1, ho2, ho3, ho4, ho5⟩ := ho
  have hP : (pairG r0 r1 x0 x1 k0 k1 a [r0, r1, x0, x1, a]).calcPx true (unitV 5 4) = .ok (List.ofFn (![0, 0, 0, 0, 1] : Fin 5 → ℝ)) := by
    have e : (unitV 5 4 : List ℝ) = [0, 0, 0, 0, 1] := by kernel_rfl
    rw [e, pairG_calcPx]
    simp [List.ofFn_succ]
  have hS : ∀ v : List ℝ, v.length = 1 → matTVec (pairG r0 r1 x0 x1 k0 k1 a [r0, r1, x0, x1, a]).S v = .ok (List.replicate 1 0) → v = List.replicate 1 0 := by
    intro v hv h0
    obtain ⟨y, rfl⟩ := List.length_eq_one_iff.1 hv
    have : matTVec (pairG r0 r1 x0 x1 k0 k1 a [r0, r1, x0, x1, a]).S [y] = .ok [1 * y + 0] := by kernel_rfl
    rw [this] at h0
    have := List.cons.inj (Except.ok.inj h0)
    simp at this
    rw [this]
    rfl
  have hlow : BoundedBelow (Jᵀ * J) o.eps := by
    intro v
    have h1 : o.eps * o.eps ≤ 1 / 10000 := by nlinarith
    have h2 : o.eps * o.eps * normSq v ≤ 1 / 10000 * normSq v := mul_le_mul_of_nonneg_right h1 (normSq_nonneg v)
    refine h2.trans ?_
    rw [hHv]
    simp only [normSq, Fin.sum_univ_five, Matrix.cons_val]
    nlinarith [sq_nonneg (2 * v 0 - v 4), sq_nonneg (2 * v 1 - v 4), sq_nonneg (2 * v 4 - v 0 - v 1), sq_nonneg (v 2), sq_nonneg (v 3), sq_nonneg ((2 * v 0 - v 4) + (2 * v 1 - v 4) + 2 * (2 * v 4 - v 0 - v 1)),
      sq_nonneg (v 4), sq_nonneg (v 0), sq_nonneg (v 1)]
  have hfar : FarFromEigenvector (Jᵀ * J) (![0, 0, 0, 0, 1] : Fin 5 → ℝ) o.eps := by
    intro c
    rw [hHv]
    simp only [normSq, Fin.sum_univ_five, Matrix.cons_val, Pi.sub_apply, Pi.smul_apply, smul_eq_mul]
    nlinarith [sq_nonneg (2 - c)]
  obtain ⟨V, hV⟩ := C73_returns hr hg hJ ⟨ho1, ho2, ho4, ho5⟩ hlow probes (by
    intro j hjl
    have : j = 0 := by
      have : j < 1 := hjl
      omega
    subst this
    exact ⟨_, hP, hfar⟩)
  obtain ⟨b, x, _, _, hpos⟩ := C73_covariance hr hg hS hJ (lam := 1 / 10) (by norm_num) hbd ⟨ho1, ho2, by linarith, ho4, ho5⟩ hV (cov := fun _ => [1 / 2, 1 / 2, 0, 0, 1]) (by
    intro j hjl
    have : j = 0 := by
      have : j < 1 := hjl
      omega
    subst this
    refine ⟨rfl, ?_⟩
    have e : List.ofFn (![1 / 2, 1 / 2, 0, 0, 1] : Fin 5 → ℝ) = [1 / 2, 1 / 2, 0, 0, 1] := by simp [List.ofFn_succ]
    have : (pairG r0 r1 x0 x1 k0 k1 a [r0, r1, x0, x1, a]).calcHx (List.ofFn (![1 / 2, 1 / 2, 0, 0, 1] : Fin 5 → ℝ)) = .ok (List.ofFn ((Jᵀ * J) *ᵥ (![1 / 2, 1 / 2, 0, 0, 1] : Fin 5 → ℝ))) :=
      calcHx_isMatrix hr hg hJ (![1 / 2, 1 / 2, 0, 0, 1] : Fin 5 → ℝ)
    rw [hHv, e] at this
    refine Eq.trans this ?_
    have e : (unitV 5 4 : List ℝ) = [0, 0, 0, 0, 1] := by kernel_rfl
    refine Eq.trans ?_ (congrArg Except.ok e.symm)
    simp [List.ofFn_succ]
    norm_num)
  obtain ⟨l1, l2, _⟩ := C31_symmetric hV
  obtain ⟨row, rfl⟩ := List.length_eq_one_iff.1 (show V.length = 1 from l1)
  obtain ⟨v, rfl⟩ := List.length_eq_one_iff.1 (show row.length = 1 from l2 row (by simp))
  obtain ⟨q1, q2⟩ := hpos 0 (by show 0 < 1; omega)
  exact ⟨v, hV, q1, q2⟩

end Verif
