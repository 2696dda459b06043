import Verif.Lemmas.MoreData
/-
Adding match-up files never makes the uncertainties of the parameters larger.
-/
set_option autoImplicit false
namespace Verif
open Finset (sum_congr)
variable {δ : Type}

/-- Generalised least squares of fewer rows is a linear estimator of all rows, so it has no smaller variance. -/
theorem fewer_rows {n N P : Nat} {Q : Matrix (Fin N) (Fin N) ℝ} {M : Matrix (Fin N) (Fin P) ℝ} {e : Fin n → Fin N} (he : Function.Injective e) (L : Matrix (Fin P) (Fin n) ℝ)
    (hL : L * M.submatrix e id = 1) : ∃ L' : Matrix (Fin P) (Fin N) ℝ, L' * M = 1 ∧ L' * Q * L'.transpose = L * Q.submatrix e e * L.transpose := by
  classical
  have hsel : ∀ {k : Nat} (X : Matrix (Fin N) (Fin k) ℝ), (Matrix.of fun (f : Fin n) (i : Fin N) => if e f = i then (1 : ℝ) else 0) * X = X.submatrix e id := by
    intro k X
    ext f j
    rw [Matrix.mul_apply, Finset.sum_eq_single (e f)]
    · simp
    · intro i _ hne
      simp [Ne.symm hne]
    · intro h
      exact absurd (Finset.mem_univ _) h
  generalize hS : (Matrix.of fun (f : Fin n) (i : Fin N) => if e f = i then (1 : ℝ) else 0) = S at hsel
  refine ⟨L * S, by rw [Matrix.mul_assoc, hsel, hL], ?_⟩
  have hT : Q.submatrix e id * S.transpose = Q.submatrix e e := by
    have := congrArg Matrix.transpose (hsel (Q.submatrix e id).transpose)
    rw [Matrix.transpose_mul, Matrix.transpose_transpose] at this
    rw [this]
    rfl
  rw [Matrix.transpose_mul, Matrix.mul_assoc L S Q, hsel, ← Matrix.mul_assoc, Matrix.mul_assoc L, hT]

/-- The covariance of K is symmetric and has no negative quadratic form. -/
theorem kCovM_symm_nonneg {g : GN ℝ δ} {ms : Evaluable ℝ δ} {labels clabels : List String} {m n : Nat} {N : List Nat} (hs : g.Setup ms labels clabels m N n) (B : Nat → Nat → Nat → ℝ) :
    (∀ i i', ms.mu.kCov B i i' = ms.mu.kCov B i' i) ∧ ∀ y, 0 ≤ dotProduct y ((kCovM ms.mu B).mulVec y) := by
  refine ⟨?_, ?_⟩
  · intro i i'
    unfold MatchUp.kCov
    rw [kCov_root hs, kCov_root hs]
    congr 1
    · by_cases hii : i = i'
      · rw [if_pos hii, if_pos hii.symm, hii]
      · rw [if_neg hii, if_neg (Ne.symm hii)]
    · exact sum_congr rfl fun c _ => mul_comm _ _
  · intro y
    show 0 ≤ ∑ i, y i * (kCovM ms.mu B).mulVec y i
    rw [kCovM_form hs]
    exact add_nonneg (Finset.sum_nonneg fun i _ => sq_nonneg _) (Finset.sum_nonneg fun i _ => sq_nonneg _)

section
variable {env : ReadEnv ℝ δ} {ds ds' : List (Dataset ℝ)} {sd : SensorData ℝ (SensorModel ℝ δ) (AdjModel ℝ)} {σ : Nat → Nat} {ms ms' : Evaluable ℝ δ}

/-- **C94, K.** K of each match-up of some of the files is the same when these are read alone. -/
theorem C94_K (he : EnumOk env.enumNat) {m m' : Nat} (hσ : SomeOf ds ds' σ) (hnew : NoNewSensor ds ds') (hf : SolvableFiles ds sd m) (hf' : SolvableFiles ds' sd m')
    (h : openMatchUpWith env defaultAdjustment ds sd = .ok ms) (h' : openMatchUpWith env defaultAdjustment ds' sd = .ok ms') (hn : ms.mu.Normalisable) (hn' : ms'.mu.Normalisable)
    {g g' : GN ℝ δ} (hg : g.Solves ms) (hg' : g'.Solves ms') {v v' a : List ℝ} (hv : v.length = ms.mu.values.length) (hv' : v'.length = ms'.mu.values.length)
    (ha : a.length = g.hd.a.length) (hs : SameEstimates ds ds' σ ms.mu ms'.mu v v') :
    ms'.a = ms.a ∧ ms'.mu.idx.parameter_sensor = ms.mu.idx.parameter_sensor ∧ ∃ k k', ms.kOf v a = .ok k ∧ ms'.kOf v' a = .ok k' ∧ SameK ds ds' σ k k' := by
  obtain ⟨β, labels, clabels, o⟩ := fewer he hσ hnew hf hf' h h'
  exact ⟨o.params, by rw [o.ready.parameters.1, o.ready'.parameters.1], o.kOf hn hn' hg hg' hv hv' ha hs⟩

/-- **C94.** With exact linear solves, the covariance matrix of the parameters which the solver reports for all files is not larger than the one it reports for some of them at the same
estimate: no parameter, and no combination of parameters, has a larger variance. -/
theorem C94_covariance_partial (he : EnumOk env.enumNat) {m m' : Nat} (hσ : SomeOf ds ds' σ) (hnew : NoNewSensor ds ds') (hf : SolvableFiles ds sd m) (hf' : SolvableFiles ds' sd m')
    (h : openMatchUpWith env defaultAdjustment ds sd = .ok ms) (h' : openMatchUpWith env defaultAdjustment ds' sd = .ok ms') (hn : ms.mu.Normalisable) (hn' : ms'.mu.Normalisable)
    {labels clabels : List String} {k k' : Nat} (hr : ms.SolverReady labels clabels k) (hr' : ms'.SolverReady labels clabels k')
    {g g' : GN ℝ δ} (hg : g.Solves ms) (hg' : g'.Solves ms') (hsm : g.Smooth ms labels clabels) (hsm' : g'.Smooth ms' labels clabels)
    {est est' : Evaluable ℝ δ} (hest : g.EstimateIs est) (hest' : g'.EstimateIs est') (hs : SameEstimates ds ds' σ ms.mu ms'.mu est.mu.values est'.mu.values)
    (hpar : g'.xyza.drop g'.hd.mu.values.length = g.xyza.drop g.hd.mu.values.length)
    (hid : ∀ B A, ms'.KDerivatives est'.mu.values (g'.xyza.drop g'.hd.mu.values.length) B A → Identifies A ms'.mu.ks.length g'.hd.a.length)
    (hS : ∀ v, v.length = g.hd.a.length → matTVec g.S v = .ok (List.replicate g.hd.a.length 0) → v = List.replicate g.hd.a.length 0)
    (hS' : ∀ v, v.length = g'.hd.a.length → matTVec g'.S v = .ok (List.replicate g'.hd.a.length 0) → v = List.replicate g'.hd.a.length 0)
    (minres : GN ℝ δ → List ℝ → Py (List ℝ))
    (hsolve : ∀ b, b.length = g.hd.mu.values.length + g.hd.a.length → ∃ z, minres g b = .ok z ∧ z.length = b.length ∧ g.calcHx z = .ok b)
    (hsolve' : ∀ b, b.length = g'.hd.mu.values.length + g'.hd.a.length → ∃ z, minres g' b = .ok z ∧ z.length = b.length ∧ g'.calcHx z = .ok b) :
    g'.hd.a.length = g.hd.a.length ∧ ∃ V V', g.covariance minres = .ok V ∧ g'.covariance minres = .ok V' ∧
      (∀ j, j < g.hd.a.length → (V.getD j []).getD j 0 ≤ (V'.getD j []).getD j 0) ∧
      ∀ c : Nat → ℝ, ∑ i ∈ Finset.range g.hd.a.length, ∑ j ∈ Finset.range g.hd.a.length, c i * (V.getD i []).getD j 0 * c j ≤
        ∑ i ∈ Finset.range g.hd.a.length, ∑ j ∈ Finset.range g.hd.a.length, c i * (V'.getD i []).getD j 0 * c j := by
  obtain ⟨β, labels0, clabels0, o⟩ := fewer he hσ hnew hf hf' h h'
  obtain ⟨l1, l2⟩ := estimate_lengths hr hn hg hest
  obtain ⟨l1', l2'⟩ := estimate_lengths hr' hn' hg' hest'
  have hal : g'.hd.a.length = g.hd.a.length := by rw [← l2', hpar, l2]
  obtain ⟨est0, B, A, h0, hB⟩ := C88_derivatives hr hg hn hsm
  obtain ⟨est0', B', A', h0', hB'⟩ := C88_derivatives hr' hg' hn' hsm'
  have e1 : est0 = est := Except.ok.inj (h0.symm.trans hest)
  have e2 : est0' = est' := Except.ok.inj (h0'.symm.trans hest')
  subst e1 e2
  have hA' := hid B' A' hB'
  obtain ⟨e, hinj, hee⟩ := hσ.rows o.ksl o.ksl'
  rw [hpar] at hB'
  have hd := fun f => o.derivatives hn hn' hg hg' l1 l1' l2 hs hee hB hB' f
  have hP := l2
  rw [l2] at hd
  have hQ := o.kCov hinj hee (fun f => (hd f).1) fun f => (hd f).2.2
  have hM : kParM ms'.mu.ks.length g.hd.a.length A' = (kParM ms.mu.ks.length g.hd.a.length A).submatrix e id := by
    ext f j
    exact ((hd f).2.1 j j.2).symm
  have hA : Identifies A ms.mu.ks.length g.hd.a.length := by
    intro d hz j hj
    refine hA' d (fun i hi => ?_) j (by rw [hal]; exact hj)
    rw [hal, ← hz (e ⟨i, hi⟩) (e ⟨i, hi⟩).2]
    exact sum_congr rfl fun j hj => by rw [(hd ⟨i, hi⟩).2.1 j (Finset.mem_range.1 hj)]
  obtain ⟨m1, m2, V, v1, v2⟩ := C88_covariance_partial hr hg hn hsm hest hB hA hS minres hsolve
  obtain ⟨m1', m2', V', v1', v2'⟩ := C88_covariance_partial hr' hg' hn' hsm' hest' (by rw [hpar]; exact hB') hA' hS' minres hsolve'
  obtain ⟨Ns, n, hset⟩ := hg.setup hr
  obtain ⟨Ns', n', hset'⟩ := hg'.setup hr'
  obtain ⟨s1, s2⟩ := kCovM_symm_nonneg hset B
  obtain ⟨s1', s2'⟩ := kCovM_symm_nonneg hset' B'
  rw [hal] at m2'
  obtain ⟨b1, b2, b3⟩ := C89_least_variance s1 s2 m1 m2
  obtain ⟨b1', b2', b3'⟩ := C89_least_variance s1' s2' m1' m2'
  rw [hM] at b1'
  obtain ⟨L, q1, q2⟩ := fewer_rows (Q := kCovM ms.mu B) hinj _ b1'
  rw [← hQ, b2'] at q2
  have hle := fun c => b3 L q1 c
  rw [q2] at hle
  have w : ∀ i j, i < g.hd.a.length → j < g.hd.a.length → ∀ (hi : i < g.hd.a.length) (hj : j < g.hd.a.length), (V'.getD i []).getD j 0 = propagatedCov ms'.mu g.hd.a.length B' A' ⟨i, hi⟩ ⟨j, hj⟩ := by
    intro i j _ _ hi hj
    have q := v2' ⟨i, by rw [hal]; exact hi⟩ ⟨j, by rw [hal]; exact hj⟩
    simp only at q
    rw [q]
    have : ∀ (P : Nat) (hP : P = g.hd.a.length) (hi' : i < P) (hj' : j < P), propagatedCov ms'.mu P B' A' ⟨i, hi'⟩ ⟨j, hj'⟩ = propagatedCov ms'.mu g.hd.a.length B' A' ⟨i, hi⟩ ⟨j, hj⟩ := by
      intro P hP hi' hj'
      subst hP
      rfl
    exact this _ hal _ _
  have form : ∀ (W : List (List ℝ)) (X : Matrix (Fin g.hd.a.length) (Fin g.hd.a.length) ℝ) (_ : ∀ i j : Fin g.hd.a.length, (W.getD i []).getD j 0 = X i j) (c : Nat → ℝ),
      ∑ i ∈ Finset.range g.hd.a.length, ∑ j ∈ Finset.range g.hd.a.length, c i * (W.getD i []).getD j 0 * c j = dotProduct (fun i : Fin g.hd.a.length => c i) (X.mulVec fun i => c i) := by
    intro W X hW c
    rw [Finset.sum_range]
    show _ = ∑ i : Fin g.hd.a.length, c i * X.mulVec (fun i => c i) i
    refine sum_congr rfl fun i _ => ?_
    rw [Finset.sum_range]
    show _ = c i * ∑ j : Fin g.hd.a.length, X i j * c j
    rw [Finset.mul_sum]
    exact sum_congr rfl fun j _ => by rw [hW i j]; ring
  have hforms : ∀ c : Nat → ℝ, ∑ i ∈ Finset.range g.hd.a.length, ∑ j ∈ Finset.range g.hd.a.length, c i * (V.getD i []).getD j 0 * c j ≤
        ∑ i ∈ Finset.range g.hd.a.length, ∑ j ∈ Finset.range g.hd.a.length, c i * (V'.getD i []).getD j 0 * c j := by
    intro c
    rw [form V _ v2 c, form V' _ (fun i j => w i j i.2 j.2 i.2 j.2) c]
    exact hle _
  refine ⟨hal, V, V', v1, v1', ?_, hforms⟩
  intro j hj
  have := hforms fun i => if i = j then 1 else 0
  have pick : ∀ W : List (List ℝ), ∑ i ∈ Finset.range g.hd.a.length, ∑ q ∈ Finset.range g.hd.a.length, (if i = j then (1 : ℝ) else 0) * (W.getD i []).getD q 0 * (if q = j then 1 else 0) =
      (W.getD j []).getD j 0 := by
    intro W
    rw [Finset.sum_eq_single j]
    · rw [Finset.sum_eq_single j]
      · simp
      · intro q _ hq
        simp [hq]
      · intro h
        exact absurd (Finset.mem_range.2 hj) h
    · intro i _ hi
      simp [hi]
    · intro h
      exact absurd (Finset.mem_range.2 hj) h
  rwa [pick V, pick V'] at this

/-- **C94, corresponding estimates.** For every state of the solver on all files there is one on some of them with the same estimate of their measurements and the parameters. -/
theorem C94_corresponding (he : EnumOk env.enumNat) {m m' : Nat} (hσ : SomeOf ds ds' σ) (hnew : NoNewSensor ds ds') (hf : SolvableFiles ds sd m) (hf' : SolvableFiles ds' sd m')
    (h : openMatchUpWith env defaultAdjustment ds sd = .ok ms) (h' : openMatchUpWith env defaultAdjustment ds' sd = .ok ms') (hn : ms.mu.Normalisable) (hn' : ms'.mu.Normalisable)
    {g g' : GN ℝ δ} (hg : g.Solves ms) (hg' : g'.Solves ms') {est : Evaluable ℝ δ} (hest : g.EstimateIs est) :
    ∃ x est', ({ g' with xyza := x } : GN ℝ δ).Solves ms' ∧ ({ g' with xyza := x } : GN ℝ δ).EstimateIs est' ∧ SameEstimates ds ds' σ ms.mu ms'.mu est.mu.values est'.mu.values ∧
      x.drop g'.hd.mu.values.length = g.xyza.drop g.hd.mu.values.length := by
  obtain ⟨β, labels, clabels, o⟩ := fewer he hσ hnew hf hf' h h'
  obtain ⟨l1, l2⟩ := estimate_lengths o.ready hn hg hest
  obtain ⟨N, n, hs⟩ := hg.setup o.ready
  obtain ⟨N', n', hs'⟩ := hg'.setup o.ready'
  obtain ⟨v, hvl, hve⟩ := exists_values ms'.mu fun b r => ms.mu.elem est.mu.values (β b) r
  have hvl' : v.length = ms'.mu.values.length := by rw [hvl, o.ready'.wf.values]
  obtain ⟨q, hq, _⟩ := C85_definite o.ready' hn' (d := List.zipWith (· - ·) v ms'.mu.values) (by rw [List.length_zipWith, hvl', Nat.min_self])
  obtain ⟨x, f, est', k, hx, hd, hf1, h1, hv, h2, _⟩ := C85_attained o.ready' hg' hn' hvl' (a := g.xyza.drop g.hd.mu.values.length)
    (by rw [l2, hs.sizes.2.1, hs'.sizes.2.1]) hq
  refine ⟨x, est', ⟨hg'.norm, hx.trans hg'.xyza, hg'.rows, hg'.cols⟩, h1, ?_, hd⟩
  rw [hv]
  exact o.same.2 fun b r hb hr => hve ⟨b, r⟩ (positions_mem hb hr)
end
end Verif
