import Verif.Props.MoreData
/-
C93 and C94 with the iterative linear solver of the code: the order of the files and the adding of files.
-/
set_option autoImplicit false
namespace Verif
open Finset (sum_congr)
variable {δ : Type}

section
variable {env : ReadEnv ℝ δ} {ds ds' : List (Dataset ℝ)} {sd : SensorData ℝ (SensorModel ℝ δ) (AdjModel ℝ)} {σ : Nat → Nat} {ms ms' : Evaluable ℝ δ}

/-- **C94, propagation.** If some of the files (`ds'`) identify the parameters, then all files (`ds`) do, and the covariance which the declared uncertainties give for all files is not
larger than the one for some of them. -/
theorem C94_propagated (he : EnumOk env.enumNat) {m m' : Nat} (hσ : SomeOf ds ds' σ) (hnew : NoNewSensor ds ds') (hf : SolvableFiles ds sd m) (hf' : SolvableFiles ds' sd m')
    (h : openMatchUpWith env defaultAdjustment ds sd = .ok ms) (h' : openMatchUpWith env defaultAdjustment ds' sd = .ok ms') (hn : ms.mu.Normalisable) (hn' : ms'.mu.Normalisable)
    {labels clabels : List String} {k k' : Nat} (hr : ms.SolverReady labels clabels k) (hr' : ms'.SolverReady labels clabels k')
    {g g' : GN ℝ δ} (hg : g.Solves ms) (hg' : g'.Solves ms') (hsm : g.Smooth ms labels clabels) (hsm' : g'.Smooth ms' labels clabels)
    {est est' : Evaluable ℝ δ} (hest : g.EstimateIs est) (hest' : g'.EstimateIs est') (hs : SameEstimates ds ds' σ ms.mu ms'.mu est.mu.values est'.mu.values)
    (hpar : g'.xyza.drop g'.hd.mu.values.length = g.xyza.drop g.hd.mu.values.length) {B B' : Nat → Nat → Nat → ℝ} {A A' : Nat → Nat → ℝ}
    (hB : ms.KDerivatives est.mu.values (g.xyza.drop g.hd.mu.values.length) B A) (hB' : ms'.KDerivatives est'.mu.values (g'.xyza.drop g'.hd.mu.values.length) B' A')
    (hA' : Identifies A' ms'.mu.ks.length g'.hd.a.length) :
    g'.hd.a.length = g.hd.a.length ∧ Identifies A ms.mu.ks.length g.hd.a.length ∧
      (∀ c : Fin g.hd.a.length → ℝ, dotProduct c ((propagatedCov ms.mu g.hd.a.length B A).mulVec c) ≤ dotProduct c ((propagatedCov ms'.mu g.hd.a.length B' A').mulVec c)) ∧
      ∀ j : Fin g.hd.a.length, propagatedCov ms.mu g.hd.a.length B A j j ≤ propagatedCov ms'.mu g.hd.a.length B' A' j j := by
  obtain ⟨β, labels0, clabels0, o⟩ := fewer he hσ hnew hf hf' h h'
  obtain ⟨l1, l2⟩ := estimate_lengths hr hn hg hest
  obtain ⟨l1', l2'⟩ := estimate_lengths hr' hn' hg' hest'
  have hal : g'.hd.a.length = g.hd.a.length := by rw [← l2', hpar, l2]
  obtain ⟨e, hinj, hee⟩ := hσ.rows o.ksl o.ksl'
  obtain ⟨m1', m2', _⟩ := C88_columns hr' hg' hn' hsm' hest' hB' hA'
  rw [hpar] at hB'
  have hd := fun f => o.derivatives hn hn' hg hg' l1 l1' l2 hs hee hB hB' f
  rw [l2] at hd
  have hQ := o.kCov hinj hee (fun f => (hd f).1) fun f => (hd f).2.2
  have hM : kParM ms'.mu.ks.length g.hd.a.length A' = (kParM ms.mu.ks.length g.hd.a.length A).submatrix e id := by
    ext f j
    exact ((hd f).2.1 j j.2).symm
  have hA : Identifies A ms.mu.ks.length g.hd.a.length := by
    intro d hz j hj
    refine hA' d (fun i hi => ?_) j (by rw [hal]; exact hj)
    rw [hal, ← hz (e ⟨i, hi⟩) (e ⟨i, hi⟩).2]
    exact sum_congr rfl fun j hj => by rw [(hd ⟨i, hi⟩).2.1 j (Finset.mem_range.1 hj)]
  obtain ⟨m1, m2, _⟩ := C88_columns hr hg hn hsm hest hB hA
  obtain ⟨Ns, n, hset⟩ := hg.setup hr
  obtain ⟨Ns', n', hset'⟩ := hg'.setup hr'
  obtain ⟨s1, s2⟩ := kCovM_symm_nonneg hset B
  obtain ⟨s1', s2'⟩ := kCovM_symm_nonneg hset' B'
  rw [hal] at m2'
  obtain ⟨b1, b2, b3⟩ := C89_least_variance s1 s2 m1 m2
  obtain ⟨b1', b2', b3'⟩ := C89_least_variance s1' s2' m1' m2'
  rw [hM] at b1'
  obtain ⟨L, q1, q2⟩ := fewer_rows (Q := kCovM ms.mu B) hinj _ b1'
  rw [← hQ, b2'] at q2
  have hle := fun c => b3 L q1 c
  rw [q2] at hle
  refine ⟨hal, hA, hle, fun j => ?_⟩
  have := hle (Pi.single j 1)
  simpa using this

/-- **C94, with the iterative solver.** The covariance matrices reported with the linear solver of the code: each variance reported for all files exceeds the one reported for some of
them by no more than the inexactness of the linear solves of the latter (and not at all the propagated one). -/
theorem C94_minres (he : EnumOk env.enumNat) {m m' : Nat} (hσ : SomeOf ds ds' σ) (hnew : NoNewSensor ds ds') (hf : SolvableFiles ds sd m) (hf' : SolvableFiles ds' sd m')
    (h : openMatchUpWith env defaultAdjustment ds sd = .ok ms) (h' : openMatchUpWith env defaultAdjustment ds' sd = .ok ms') (hn : ms.mu.Normalisable) (hn' : ms'.mu.Normalisable)
    {labels clabels : List String} {k k' : Nat} (hr : ms.SolverReady labels clabels k) (hr' : ms'.SolverReady labels clabels k')
    {g g' : GN ℝ δ} (hg : g.Solves ms) (hg' : g'.Solves ms') (hsm : g.Smooth ms labels clabels) (hsm' : g'.Smooth ms' labels clabels)
    {est est' : Evaluable ℝ δ} (hest : g.EstimateIs est) (hest' : g'.EstimateIs est') (hs : SameEstimates ds ds' σ ms.mu ms'.mu est.mu.values est'.mu.values)
    (hpar : g'.xyza.drop g'.hd.mu.values.length = g.xyza.drop g.hd.mu.values.length) {B B' : Nat → Nat → Nat → ℝ} {A A' : Nat → Nat → ℝ}
    (hB : ms.KDerivatives est.mu.values (g.xyza.drop g.hd.mu.values.length) B A) (hB' : ms'.KDerivatives est'.mu.values (g'.xyza.drop g'.hd.mu.values.length) B' A')
    (hA' : Identifies A' ms'.mu.ks.length g'.hd.a.length)
    (hS : ∀ v, v.length = g.hd.a.length → matTVec g.S v = .ok (List.replicate g.hd.a.length 0) → v = List.replicate g.hd.a.length 0)
    (hS' : ∀ v, v.length = g'.hd.a.length → matTVec g'.S v = .ok (List.replicate g'.hd.a.length 0) → v = List.replicate g'.hd.a.length 0)
    {J : Matrix (Fin (g.hd.mu.values.length + g.hd.mu.ks.length)) (Fin (g.hd.mu.values.length + g.hd.a.length)) ℝ} (hJ : g.IsJacobian J)
    {J' : Matrix (Fin (g'.hd.mu.values.length + g'.hd.mu.ks.length)) (Fin (g'.hd.mu.values.length + g'.hd.a.length)) ℝ} (hJ' : g'.IsJacobian J')
    {lam : ℝ} (hl : 0 < lam) (hbd : ∀ v, lam * normSq v ≤ normSq (J.mulVec v)) {lam' : ℝ} (hl' : 0 < lam') (hbd' : ∀ v, lam' * normSq v ≤ normSq (J'.mulVec v))
    {o : MinresOpts ℝ} (ho : o.shift = 0 ∧ 0 < o.eps ∧ o.eps ≤ lam ∧ 0 ≤ o.cubeRootEps ∧ 0 ≤ o.rtol)
    {o' : MinresOpts ℝ} (ho' : o'.shift = 0 ∧ 0 < o'.eps ∧ o'.eps ≤ lam' ∧ 0 ≤ o'.cubeRootEps ∧ 0 ≤ o'.rtol) {probes : (n : Nat) → List (Fin n → ℝ)}
    {V V' : List (List ℝ)} (hV : g.covariance (GN.minresObject o realSqrt probes) = .ok V) (hV' : g'.covariance (GN.minresObject o' realSqrt probes) = .ok V') :
    ∃ b x : Nat → Fin (g'.hd.mu.values.length + g'.hd.a.length) → ℝ,
      (∀ j, j < g'.hd.a.length → g'.calcPx true (unitV (g'.hd.mu.values.length + g'.hd.a.length) (g'.hd.mu.values.length + j)) = .ok (List.ofFn (b j)) ∧
        GN.minresObject o' realSqrt probes g' (List.ofFn (b j)) = .ok (List.ofFn (x j))) ∧
      ∀ i, i < g.hd.a.length → 0 < (V.getD i []).getD i 0 ∧ (∀ hi : i < g.hd.a.length, (V.getD i []).getD i 0 ≤ propagatedCov ms'.mu g.hd.a.length B' A' ⟨i, hi⟩ ⟨i, hi⟩) ∧
        (V.getD i []).getD i 0 ≤ (V'.getD i []).getD i 0 +
          Real.sqrt (normSq (b i)) * Real.sqrt (normSq (b i - (J'.transpose * J').mulVec (x i))) / lam' := by
  obtain ⟨hal, hA, _, hle⟩ := C94_propagated he hσ hnew hf hf' h h' hn hn' hr hr' hg hg' hsm hsm' hest hest' hs hpar hB hB' hA'
  obtain ⟨_, _, _, _, hlo⟩ := C88_minres_partial hr hg hn hsm hest hB hA hS hJ hl hbd ho hV
  obtain ⟨b, x, hb, herr, _⟩ := C88_minres_partial hr' hg' hn' hsm' hest' hB' hA' hS' hJ' hl' hbd' ho' hV'
  refine ⟨b, x, hb, fun i hi => ⟨(hlo ⟨i, hi⟩).1, fun _ => (hlo ⟨i, hi⟩).2.trans (hle ⟨i, hi⟩), ?_⟩⟩
  have e1 := (hlo ⟨i, hi⟩).2.trans (hle ⟨i, hi⟩)
  have e2 := herr ⟨i, by rw [hal]; exact hi⟩ ⟨i, by rw [hal]; exact hi⟩
  have : ∀ (P : Nat) (hP : P = g.hd.a.length) (hi' : i < P), propagatedCov ms'.mu P B' A' ⟨i, hi'⟩ ⟨i, hi'⟩ = propagatedCov ms'.mu g.hd.a.length B' A' ⟨i, hi⟩ ⟨i, hi⟩ := by
    intro P hP hi'
    subst hP
    rfl
  rw [this _ hal] at e2
  have e3 := (abs_le.1 e2).1
  simp only at e1 e3
  have e4 : (Real.sqrt (normSq (b i)) * Real.sqrt (normSq (b i - (J'.transpose * J').mulVec (x i))) + Real.sqrt (normSq (b i)) * Real.sqrt (normSq (b i - (J'.transpose * J').mulVec (x i)))) /
      (2 * lam') = Real.sqrt (normSq (b i)) * Real.sqrt (normSq (b i - (J'.transpose * J').mulVec (x i))) / lam' := by
    field_simp
    ring
  rw [e4] at e3
  linarith

/-- **C93, with the iterative solver.** The covariance matrices reported with the linear solver of the code for files in two orders differ by no more than the inexactness of the linear
solves. -/
theorem C93_minres (he : EnumOk env.enumNat) {m : Nat} (hp : ds.Perm ds') (hσ : Reordered ds ds' σ) (hf : SolvableFiles ds sd m)
    (h : openMatchUpWith env defaultAdjustment ds sd = .ok ms) (h' : openMatchUpWith env defaultAdjustment ds' sd = .ok ms') (hn : ms.mu.Normalisable)
    {labels clabels : List String} {k k' : Nat} (hr : ms.SolverReady labels clabels k) (hr' : ms'.SolverReady labels clabels k')
    {g g' : GN ℝ δ} (hg : g.Solves ms) (hg' : g'.Solves ms') (hsm : g.Smooth ms labels clabels) (hsm' : g'.Smooth ms' labels clabels)
    {est est' : Evaluable ℝ δ} (hest : g.EstimateIs est) (hest' : g'.EstimateIs est') (hs : SameEstimates ds ds' σ ms.mu ms'.mu est.mu.values est'.mu.values)
    (hpar : g'.xyza.drop g'.hd.mu.values.length = g.xyza.drop g.hd.mu.values.length) {B B' : Nat → Nat → Nat → ℝ} {A A' : Nat → Nat → ℝ}
    (hB : ms.KDerivatives est.mu.values (g.xyza.drop g.hd.mu.values.length) B A) (hB' : ms'.KDerivatives est'.mu.values (g'.xyza.drop g'.hd.mu.values.length) B' A')
    (hA : Identifies A ms.mu.ks.length g.hd.a.length)
    (hS : ∀ v, v.length = g.hd.a.length → matTVec g.S v = .ok (List.replicate g.hd.a.length 0) → v = List.replicate g.hd.a.length 0)
    (hS' : ∀ v, v.length = g'.hd.a.length → matTVec g'.S v = .ok (List.replicate g'.hd.a.length 0) → v = List.replicate g'.hd.a.length 0)
    {J : Matrix (Fin (g.hd.mu.values.length + g.hd.mu.ks.length)) (Fin (g.hd.mu.values.length + g.hd.a.length)) ℝ} (hJ : g.IsJacobian J)
    {J' : Matrix (Fin (g'.hd.mu.values.length + g'.hd.mu.ks.length)) (Fin (g'.hd.mu.values.length + g'.hd.a.length)) ℝ} (hJ' : g'.IsJacobian J')
    {lam : ℝ} (hl : 0 < lam) (hbd : ∀ v, lam * normSq v ≤ normSq (J.mulVec v)) {lam' : ℝ} (hl' : 0 < lam') (hbd' : ∀ v, lam' * normSq v ≤ normSq (J'.mulVec v))
    {o : MinresOpts ℝ} (ho : o.shift = 0 ∧ 0 < o.eps ∧ o.eps ≤ lam ∧ 0 ≤ o.cubeRootEps ∧ 0 ≤ o.rtol)
    {o' : MinresOpts ℝ} (ho' : o'.shift = 0 ∧ 0 < o'.eps ∧ o'.eps ≤ lam' ∧ 0 ≤ o'.cubeRootEps ∧ 0 ≤ o'.rtol) {probes : (n : Nat) → List (Fin n → ℝ)}
    {V V' : List (List ℝ)} (hV : g.covariance (GN.minresObject o realSqrt probes) = .ok V) (hV' : g'.covariance (GN.minresObject o' realSqrt probes) = .ok V') :
    g'.hd.a.length = g.hd.a.length ∧ ∃ (b x : Nat → Fin (g.hd.mu.values.length + g.hd.a.length) → ℝ) (b' x' : Nat → Fin (g'.hd.mu.values.length + g'.hd.a.length) → ℝ),
      (∀ j, j < g.hd.a.length → g.calcPx true (unitV (g.hd.mu.values.length + g.hd.a.length) (g.hd.mu.values.length + j)) = .ok (List.ofFn (b j)) ∧
        GN.minresObject o realSqrt probes g (List.ofFn (b j)) = .ok (List.ofFn (x j))) ∧
      (∀ j, j < g'.hd.a.length → g'.calcPx true (unitV (g'.hd.mu.values.length + g'.hd.a.length) (g'.hd.mu.values.length + j)) = .ok (List.ofFn (b' j)) ∧
        GN.minresObject o' realSqrt probes g' (List.ofFn (b' j)) = .ok (List.ofFn (x' j))) ∧
      ∀ i j, i < g.hd.a.length → j < g.hd.a.length → |(V'.getD i []).getD j 0 - (V.getD i []).getD j 0| ≤
        (Real.sqrt (normSq (b i)) * Real.sqrt (normSq (b j - (J.transpose * J).mulVec (x j))) +
          Real.sqrt (normSq (b j)) * Real.sqrt (normSq (b i - (J.transpose * J).mulVec (x i)))) / (2 * lam) +
        (Real.sqrt (normSq (b' i)) * Real.sqrt (normSq (b' j - (J'.transpose * J').mulVec (x' j))) +
          Real.sqrt (normSq (b' j)) * Real.sqrt (normSq (b' i - (J'.transpose * J').mulVec (x' i)))) / (2 * lam') := by
  have hn' := normalisable_perm he hp hf h h' hn
  obtain ⟨l1, l2⟩ := estimate_lengths hr hn hg hest
  obtain ⟨l1', l2'⟩ := estimate_lengths hr' hn' hg' hest'
  have hal : g'.hd.a.length = g.hd.a.length := by rw [← l2', hpar, l2]
  have hB0' := hB'
  rw [hpar] at hB0'
  obtain ⟨p1, p2⟩ := C93_propagated he hp hσ hf h h' hn hg hg' l1 l1' l2 hs hB hB0'
  rw [l2] at p1 p2
  have hA' : Identifies A' ms'.mu.ks.length g'.hd.a.length := by rw [hal]; exact p2.2 hA
  obtain ⟨b, x, hb, herr, _⟩ := C88_minres_partial hr hg hn hsm hest hB hA hS hJ hl hbd ho hV
  obtain ⟨b', x', hb', herr', _⟩ := C88_minres_partial hr' hg' hn' hsm' hest' hB' hA' hS' hJ' hl' hbd' ho' hV'
  refine ⟨hal, b, x, b', x', hb, hb', fun i j hi hj => ?_⟩
  have e1 := herr ⟨i, hi⟩ ⟨j, hj⟩
  have e2 := herr' ⟨i, by rw [hal]; exact hi⟩ ⟨j, by rw [hal]; exact hj⟩
  have : ∀ (P : Nat) (hP : P = g.hd.a.length) (hi' : i < P) (hj' : j < P), propagatedCov ms'.mu P B' A' ⟨i, hi'⟩ ⟨j, hj'⟩ = propagatedCov ms.mu g.hd.a.length B A ⟨i, hi⟩ ⟨j, hj⟩ := by
    intro P hP hi' hj'
    subst hP
    rw [p1]
  rw [this _ hal] at e2
  simp only at e1 e2
  rw [abs_sub_comm] at e1
  calc _ = |((V'.getD i []).getD j 0 - propagatedCov ms.mu g.hd.a.length B A ⟨i, hi⟩ ⟨j, hj⟩) + (propagatedCov ms.mu g.hd.a.length B A ⟨i, hi⟩ ⟨j, hj⟩ - (V.getD i []).getD j 0)| := by
        congr 1; ring
    _ ≤ _ := (abs_add_le _ _).trans (by linarith)
end
end Verif
