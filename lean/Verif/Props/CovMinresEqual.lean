import Verif.Lemmas.SpanK
/-
C93 with the iterative solver: the reported covariance matrices of the files in two orders are equal.
-/
set_option autoImplicit false
namespace Verif
open Matrix Finset
variable {δ : Type}

theorem prodM_val {g : GN ℝ δ} {Nv nl : Nat} {js : List (SeriesJ ℝ)} {r d : Nat} (hd : d < Nv) : g.prodM Nv nl js r d = jacM Nv js r d := by
  unfold GN.prodM
  rw [sum_eq_single d]
  · unfold GN.preM
    rw [if_pos hd, if_pos rfl, mul_one]
  · intro c _ hc
    unfold GN.preM
    by_cases h : c < Nv
    · rw [if_pos h, if_neg hc, mul_zero]
    · rw [if_neg h, if_neg (by omega), mul_zero]
  · intro h
    exact absurd (mem_range.2 (by omega)) h

theorem prodM_par {g : GN ℝ δ} {Nv nl : Nat} {js : List (SeriesJ ℝ)} {r q : Nat} : g.prodM Nv nl js r (Nv + q) = ∑ p ∈ range nl, jacM Nv js r (Nv + p) * ent (g.S.getD p []) q := by
  unfold GN.prodM
  rw [sum_range_add, sum_eq_zero (s := range Nv), zero_add]
  · refine sum_congr rfl fun p _ => ?_
    unfold GN.preM
    rw [if_neg (by omega), if_pos (by omega), Nat.add_sub_cancel_left, Nat.add_sub_cancel_left]
  · intro c hc
    have := mem_range.1 hc
    unfold GN.preM
    rw [if_pos this, if_neg (by omega), mul_zero]

/-- The derivatives of K for a parameter after preconditioning, in units of the uncertainty of K. -/
noncomputable def kPre (P : Nat) (S : List (List ℝ)) (A : Nat → Nat → ℝ) (u : Nat → ℝ) (i q : Nat) : ℝ := ∑ p ∈ range P, A i p / u i * ent (S.getD p []) q

theorem normal_of {α : Type} [Field α] {Nv T P : Nat} {M G C : Nat → Nat → α} (h1 : ∀ r c, r < Nv → c < Nv + P → M r c = if r = c then 1 else 0)
    (h2 : ∀ i c, i < T → c < Nv → M (Nv + i) c = G i c) (h3 : ∀ i q, i < T → q < P → M (Nv + i) (Nv + q) = C i q) {J : Matrix (Fin (Nv + T)) (Fin (Nv + P)) α}
    (hJ : ∀ r d, J r d = M r d) : NormalOf T G C (Jᵀ * J) := by
  intro v
  have hv : ∀ r : Fin (Nv + T), (J *ᵥ v) r = ∑ c ∈ range (Nv + P), M r c * num v c := by
    intro r
    rw [← sum_num]
    show ∑ c, J r c * v c = _
    exact sum_congr rfl fun c _ => by rw [hJ]
  have hval : ∀ r, r < Nv → ∑ c ∈ range (Nv + P), M r c * num v c = num v r := by
    intro r hr
    rw [sum_eq_single r]
    · rw [h1 r r hr (by omega), if_pos rfl, one_mul]
    · intro c hc hcr
      rw [h1 r c hr (mem_range.1 hc), if_neg (fun h => hcr h.symm), zero_mul]
    · intro h
      exact absurd (mem_range.2 (by omega)) h
  have hk : ∀ i, i < T → ∑ c ∈ range (Nv + P), M (Nv + i) c * num v c = ∑ c ∈ range Nv, G i c * num v c + ∑ q ∈ range P, C i q * num v (Nv + q) := by
    intro i hi
    rw [sum_range_add]
    congr 1
    · exact sum_congr rfl fun c hc => by rw [h2 i c hi (mem_range.1 hc)]
    · exact sum_congr rfl fun q hq => by rw [h3 i q hi (mem_range.1 hq)]
  funext d
  have hd := d.2
  have e : ((Jᵀ * J) *ᵥ v) d = ∑ r ∈ range (Nv + T), M r d * ∑ c ∈ range (Nv + P), M r c * num v c := by
    rw [← mulVec_mulVec, Finset.sum_range]
    show ∑ r, J r d * (J *ᵥ v) r = _
    exact sum_congr rfl fun r _ => by rw [hv, hJ]
  rw [e, sum_range_add, sum_congr (s₂ := range Nv) rfl fun r hr => by rw [hval r (mem_range.1 hr), h1 r d (mem_range.1 hr) hd],
    sum_congr (s₂ := range T) rfl fun i hi => by rw [hk i (mem_range.1 hi)]]
  by_cases hdv : (d : Nat) < Nv
  · rw [if_pos hdv]
    congr 1
    · rw [sum_eq_single (d : Nat)]
      · rw [if_pos rfl, one_mul, num_val]
      · intro r _ hr
        rw [if_neg hr, zero_mul]
      · intro h
        exact absurd (mem_range.2 hdv) h
    · exact sum_congr rfl fun i hi => by rw [h2 i d (mem_range.1 hi) hdv]
  · rw [if_neg hdv, sum_eq_zero (s := range Nv), zero_add]
    · refine sum_congr rfl fun i hi => ?_
      have := h3 i (d - Nv) (mem_range.1 hi) (by omega)
      rw [Nat.add_sub_cancel' (by omega)] at this
      rw [this]
    · intro r hr
      have := mem_range.1 hr
      rw [if_neg (by omega), zero_mul]

theorem NormalOf.congr {α : Type} [Field α] {Nv T P : Nat} {G C C' : Nat → Nat → α} {H : Matrix (Fin (Nv + P)) (Fin (Nv + P)) α} (h : NormalOf T G C H)
    (hC : ∀ i, i < T → ∀ q, C' i q = C i q) : NormalOf T G C' H := by
  intro v
  rw [h v]
  funext d
  congr 1
  · congr 1
    exact sum_congr rfl fun i hi => by simp only [hC i (mem_range.1 hi)]
  · exact sum_congr rfl fun i hi => by simp only [hC i (mem_range.1 hi)]

theorem sum_relabel {α : Type} [Field α] {T T' : Nat} (e : Fin T' ≃ Fin T) {I : Nat → Nat} (hI : ∀ i : Fin T, I i = e.symm i) (F : Nat → α) :
    ∑ i ∈ range T, F (I i) = ∑ i ∈ range T', F i := by
  rw [Finset.sum_range, Finset.sum_range, ← Equiv.sum_comp e.symm]
  exact sum_congr rfl fun i _ => by rw [hI]

theorem NormalOf.relabel {α : Type} [Field α] {Nv T T' P : Nat} (e : Fin T' ≃ Fin T) {I : Nat → Nat} (hI : ∀ i : Fin T, I i = e.symm i) {G C : Nat → Nat → α}
    {H : Matrix (Fin (Nv + P)) (Fin (Nv + P)) α} (h : NormalOf T' G C H) : NormalOf T (fun i => G (I i)) (fun i => C (I i)) H := by
  intro v
  rw [h v]
  funext d
  congr 1
  · congr 1
    exact (sum_relabel e hI fun i => G i d * (∑ c ∈ range Nv, G i c * num v c + ∑ q ∈ range P, C i q * num v (Nv + q))).symm
  · exact (sum_relabel e hI fun i => C i (d - Nv) * (∑ c ∈ range Nv, G i c * num v c + ∑ q ∈ range P, C i q * num v (Nv + q))).symm

theorem span_rhs {α : Type} [Field α] {Nv T P : Nat} {G : Nat → Nat → α} {s : Nat → α} {b : Fin (Nv + P) → α} (hb : ∀ d : Fin (Nv + P), b d = if Nv ≤ (d : Nat) then s (d - Nv) else 0) :
    b = spanMap Nv T P G fun d : Fin (T + P) => if T ≤ (d : Nat) then s (d - T) else 0 := by
  funext d
  have hd := d.2
  rw [hb, ← num_val (spanMap Nv T P G _) d]
  by_cases h : (d : Nat) < Nv
  · rw [if_neg (by omega), spanMap_row _ h, sum_eq_zero]
    intro i hi
    have hi := mem_range.1 hi
    rw [num_fn (fun d => if T ≤ d then s (d - T) else 0) (by omega), if_neg (by omega), mul_zero]
  · rw [if_pos (by omega)]
    obtain ⟨q, hq⟩ : ∃ q, (d : Nat) = Nv + q := ⟨d - Nv, by omega⟩
    rw [hq, spanMap_par _ (by omega), num_fn (fun d => if T ≤ d then s (d - T) else 0) (by omega), if_pos (by omega), Nat.add_sub_cancel_left, Nat.add_sub_cancel_left]

theorem spans_common {α : Type} [Field α] [LinearOrder α] [IsStrictOrderedRing α] {Nv Nv' T P P' : Nat} (hP : P' = P) {G G' C W : Nat → Nat → α}
    {H : Matrix (Fin (Nv + P)) (Fin (Nv + P)) α} {H' : Matrix (Fin (Nv' + P')) (Fin (Nv' + P')) α} (hH : NormalOf T G C H) (hH' : NormalOf T G' C H')
    (hW : ∀ i i', i < T → i' < T → ∑ c ∈ range Nv, G i c * G i' c = W i i') (hW' : ∀ i i', i < T → i' < T → ∑ c ∈ range Nv', G' i c * G' i' c = W i i')
    {o : MinresOpts α} {sqrt : α → Py α} {probes : List (Fin (Nv + P) → α)} {probes' : List (Fin (Nv' + P') → α)}
    (hs : Minres.symmetric o (fun v => .ok (H' *ᵥ v)) probes' = Minres.symmetric o (fun v => .ok (H *ᵥ v)) probes) {s t : Nat → α}
    {b c : Fin (Nv + P) → α} {b' c' : Fin (Nv' + P') → α} (hb : ∀ d : Fin (Nv + P), b d = if Nv ≤ (d : Nat) then s (d - Nv) else 0)
    (hb' : ∀ d : Fin (Nv' + P'), b' d = if Nv' ≤ (d : Nat) then s (d - Nv') else 0) (hc : ∀ d : Fin (Nv + P), c d = if Nv ≤ (d : Nat) then t (d - Nv) else 0)
    (hc' : ∀ d : Fin (Nv' + P'), c' d = if Nv' ≤ (d : Nat) then t (d - Nv') else 0) {st : MinresState α (Nv + P)} {st' : MinresState α (Nv' + P')}
    (h : Minres.solve o sqrt (fun v => .ok (H *ᵥ v)) probes b = .ok st) (h' : Minres.solve o sqrt (fun v => .ok (H' *ᵥ v)) probes' b' = .ok st') :
    ∑ d, c' d * st'.x d = ∑ d, c d * st.x d := by
  subst hP
  have hL : ∀ u v, spanMap Nv' T P' G' u ⬝ᵥ spanMap Nv' T P' G' v = spanMap Nv T P' G u ⬝ᵥ spanMap Nv T P' G v := by
    intro u v
    rw [span_dot hW, span_dot hW']
  have hA : ∀ u, (fun v => (.ok (H *ᵥ v) : Py _)) (spanMap Nv T P' G u) = .ok (spanMap Nv T P' G (spanK T P' W C u)) := fun u => congrArg Except.ok (normal_span hH hW u)
  have hA' : ∀ u, (fun v => (.ok (H' *ᵥ v) : Py _)) (spanMap Nv' T P' G' u) = .ok (spanMap Nv' T P' G' (spanK T P' W C u)) := fun u => congrArg Except.ok (normal_span hH' hW' u)
  rw [span_rhs (T := T) (G := G) hb] at h
  rw [span_rhs (T := T) (G := G') hb'] at h'
  obtain ⟨r, hr, hr'⟩ := solve_common (sqrt := sqrt) hL hA hA' hs fun d : Fin (T + P') => if T ≤ (d : Nat) then s (d - T) else 0
  rw [h] at hr
  rw [h'] at hr'
  cases r with
  | error _ => cases hr
  | ok r =>
    cases hr
    cases hr'
    rw [span_rhs (T := T) (G := G) hc, span_rhs (T := T) (G := G') hc']
    exact hL _ r.x

/-- The normal equations of the solver in terms of the derivatives of K. -/
theorem normal_form {ms : Evaluable ℝ δ} {labels clabels : List String} {m : Nat} (h : ms.SolverReady labels clabels m) {g : GN ℝ δ} (hg : g.Solves ms)
    (hn : ms.mu.Normalisable) (hsm : g.Smooth ms labels clabels) {est : Evaluable ℝ δ} (he : g.EstimateIs est) {B : Nat → Nat → Nat → ℝ} {A : Nat → Nat → ℝ}
    (hB : ms.KDerivatives est.mu.values (g.xyza.drop g.hd.mu.values.length) B A) :
    ∃ (J : Matrix (Fin (g.hd.mu.values.length + g.hd.mu.ks.length)) (Fin (g.hd.mu.values.length + g.hd.a.length)) ℝ) (G : Nat → Nat → ℝ), g.IsJacobian J ∧
      NormalOf ms.mu.ks.length G (kPre g.hd.a.length g.S A (ent ms.mu.unck.flatten)) (Jᵀ * J) ∧
      ∀ i i', i < ms.mu.ks.length → i' < ms.mu.ks.length → ∑ c ∈ range g.hd.mu.values.length, G i c * G i' c =
        ms.mu.pairing (B i) (ms.mu.covMul (B i')) / (ent ms.mu.unck.flatten i * ent ms.mu.unck.flatten i') := by
  obtain ⟨N, n, hs⟩ := hg.setup h
  obtain ⟨js, hj⟩ := hs.shaped
  obtain ⟨s1, s2, s3⟩ := hs.sizes
  have hkl : ms.mu.ks.length = ms.mu.idx.Nm.sum := h.wf.ks
  unfold GN.EstimateIs at he
  rw [s1, s3] at he
  rw [s1] at hB
  obtain ⟨e1, e2, e3⟩ := jac_elements hs hg hn hsm hj rfl he hB
  rw [s1, s2, s3, hkl]
  refine ⟨fun r d => g.prodM (N.sum + n) labels.length js r d, fun i c => (∑ p ∈ ms.mu.positions, B i p.1 p.2 * g.root ms (N.sum + n) n p c) / ent ms.mu.unck.flatten i, ⟨fun v => ?_, fun u => ?_⟩, ?_, ?_⟩
  · rw [prod_fwd_mat hj (by simp), vector_eq_ofFn]
    congr 2
    funext r
    rw [Finset.sum_range]
    simp only [ent_ofFn]
    rfl
  · rw [prod_bwd_mat hj (by simp), vector_eq_ofFn]
    congr 2
    funext r
    rw [Finset.sum_range]
    simp only [ent_ofFn]
    rfl
  · refine normal_of (M := g.prodM (N.sum + n) labels.length js) (fun r c hr hc => ?_) (fun i c hi hc => ?_) (fun i q hi hq => ?_) fun r d => rfl
    · by_cases hcv : c < N.sum + n
      · rw [prodM_val hcv, e1 r c hr hc]
      · obtain ⟨q, rfl⟩ : ∃ q, c = N.sum + n + q := ⟨c - (N.sum + n), by omega⟩
        rw [prodM_par, if_neg (by omega), sum_eq_zero]
        intro p hp
        have hp := mem_range.1 hp
        rw [e1 r _ hr (by omega), if_neg (by omega), zero_mul]
    · rw [prodM_val hc, e2 i c hi hc]
    · rw [prodM_par]
      unfold kPre
      exact sum_congr rfl fun p hp => by rw [e3 i p hi (mem_range.1 hp)]
  · intro i i' hi hi'
    rw [kCov_root hs B i i', sum_div]
    exact sum_congr rfl fun c _ => by rw [div_mul_div_comm]

theorem Orders.gram {env : ReadEnv ℝ δ} {ds ds' : List (Dataset ℝ)} {sd : SensorData ℝ (SensorModel ℝ δ) (AdjModel ℝ)} {σ β : Nat → Nat} {labels clabels : List String} {m : Nat}
    {ms ms' : Evaluable ℝ δ} (o : Orders env ds ds' sd σ β labels clabels m ms ms') (B : Nat → Nat → Nat → ℝ) (i i' : Nat) :
    ms'.mu.pairing (fun b r => B i (β b) r) (ms'.mu.covMul fun b r => B i' (β b) r) = ms.mu.pairing (B i) (ms.mu.covMul (B i')) := by
  rw [pairing_eq, pairing_eq]
  rw [← o.renumbered.sum fun b r => B i b r * ms.mu.covMul (B i') b r]
  refine sum_congr rfl fun p hp => ?_
  obtain ⟨h1, h2⟩ := positions_lt hp
  congr 1
  rw [covMul_eq, covMul_eq, ← o.renumbered.sum fun b r => ms.mu.declaredCov (β p.1) p.2 b r * B i' b r]
  refine sum_congr rfl fun p' hp' => ?_
  obtain ⟨h1', h2'⟩ := positions_lt hp'
  rw [o.renumbered.cov _ _ _ _ h1 h1' h2 h2']

theorem Orders.unck_at {env : ReadEnv ℝ δ} {ds ds' : List (Dataset ℝ)} {sd : SensorData ℝ (SensorModel ℝ δ) (AdjModel ℝ)} {σ β : Nat → Nat} {labels clabels : List String} {m : Nat}
    {ms ms' : Evaluable ℝ δ} (o : Orders env ds ds' sd σ β labels clabels m ms ms') {e : Fin ms'.mu.ks.length ≃ Fin ms.mu.ks.length}
    (he : ∀ f : Fin ms'.mu.ks.length, ∃ i d r, ds'[i]? = some d ∧ r < d.M ∧ (f : Nat) = kIndex ds' i r ∧ ((e f : Fin _) : Nat) = kIndex ds (σ i) r) (f : Fin ms'.mu.ks.length) :
    ent ms'.mu.unck.flatten f = ent ms.mu.unck.flatten (e f) := by
  obtain ⟨i, d, r, h1, h2, h3, h4⟩ := he f
  unfold ent
  rw [o.unck, o.unck', h3, h4]
  unfold kIndex
  rw [flatten_getD (fun d _ => vector_length _ _) h1 h2, flatten_getD (fun d _ => vector_length _ _) (o.reordered.index h1).2 h2]

/-- **C93, the iterative solver.** The covariance matrix of the parameters which the solver reports does not depend on the order of the files, when its linear solves are by the code's MINRES
with the same preconditioner: at the same estimate of the measurements and the parameters it has the same elements (whichever vectors the symmetry tests of the two runs draw). -/
theorem C93_covariance {env : ReadEnv ℝ δ} {ds ds' : List (Dataset ℝ)} {sd : SensorData ℝ (SensorModel ℝ δ) (AdjModel ℝ)} {σ : Nat → Nat} {ms ms' : Evaluable ℝ δ}
    (he : EnumOk env.enumNat) {m : Nat} (hp : ds.Perm ds') (hσ : Reordered ds ds' σ) (hf : SolvableFiles ds sd m)
    (h : openMatchUpWith env defaultAdjustment ds sd = .ok ms) (h' : openMatchUpWith env defaultAdjustment ds' sd = .ok ms') (hn : ms.mu.Normalisable)
    {labels clabels : List String} {k : Nat} (hr : ms.SolverReady labels clabels k)
    {g g' : GN ℝ δ} (hg : g.Solves ms) (hg' : g'.Solves ms') (hsm : g.Smooth ms labels clabels) (hsm' : g'.Smooth ms' labels clabels)
    {est est' : Evaluable ℝ δ} (hest : g.EstimateIs est) (hest' : g'.EstimateIs est') (hs : SameEstimates ds ds' σ ms.mu ms'.mu est.mu.values est'.mu.values)
    (hpar : g'.xyza.drop g'.hd.mu.values.length = g.xyza.drop g.hd.mu.values.length) (hS : g'.S = g.S)
    {o : MinresOpts ℝ} (ho : 0 ≤ o.eps ∧ 0 ≤ o.cubeRootEps) {sqrt : ℝ → Py ℝ} {probes probes' : (n : Nat) → List (Fin n → ℝ)} {V V' : List (List ℝ)}
    (hV : g.covariance (GN.minresObject o sqrt probes) = .ok V) (hV' : g'.covariance (GN.minresObject o sqrt probes') = .ok V') :
    g'.hd.a.length = g.hd.a.length ∧ ∀ i j, i < g.hd.a.length → j < g.hd.a.length → (V'.getD i []).getD j 0 = (V.getD i []).getD j 0 := by
  obtain ⟨β, labels0, clabels0, od⟩ := orders he hp hσ hf h h'
  obtain ⟨rfl, rfl⟩ : labels0 = labels ∧ clabels0 = clabels := by
    constructor
    · have := od.ready.parameters.1
      rw [hr.parameters.1] at this
      exact (Option.some.inj this).symm
    · have := od.ready.constants
      rw [hr.constants] at this
      exact (Option.some.inj this).symm
  have hn' := normalisable_perm he hp hf h h' hn
  obtain ⟨l1, l2⟩ := estimate_lengths od.ready hn hg hest
  obtain ⟨l1', l2'⟩ := estimate_lengths od.ready' hn' hg' hest'
  have hal : g'.hd.a.length = g.hd.a.length := by rw [← l2', hpar, l2]
  obtain ⟨est0, B, A, h0, hB⟩ := C88_derivatives od.ready hg hn hsm
  have e1 : est0 = est := Except.ok.inj (h0.symm.trans hest)
  subst e1
  obtain ⟨e, hee⟩ := hσ.equiv od.ksl od.ksl'
  obtain ⟨E, hE⟩ : ∃ E : Nat → Nat, ∀ f : Fin ms'.mu.ks.length, E f = e f :=
    ⟨fun i => if hi : i < ms'.mu.ks.length then e ⟨i, hi⟩ else 0, fun f => by simp [f.2]⟩
  obtain ⟨I, hI⟩ : ∃ I : Nat → Nat, ∀ f : Fin ms.mu.ks.length, I f = e.symm f :=
    ⟨fun i => if hi : i < ms.mu.ks.length then e.symm ⟨i, hi⟩ else 0, fun f => by simp [f.2]⟩
  have hIl : ∀ i, i < ms.mu.ks.length → I i < ms'.mu.ks.length := fun i hi => by
    have := hI ⟨i, hi⟩
    rw [show I i = _ from this]
    exact (e.symm ⟨i, hi⟩).2
  have hEI : ∀ i, i < ms.mu.ks.length → E (I i) = i := fun i hi => by
    rw [show I i = _ from hI ⟨i, hi⟩, hE, e.apply_symm_apply]
  have hD := od.derivatives hn hn' hg hg' l1 l1' l2 hs hee hE hB
  rw [← hpar] at hD
  have hu : ∀ i, i < ms.mu.ks.length → ent ms'.mu.unck.flatten (I i) = ent ms.mu.unck.flatten i := by
    intro i hi
    rw [show I i = _ from hI ⟨i, hi⟩, od.unck_at hee, e.apply_symm_apply]
  obtain ⟨J, G, hJ, hH, hW⟩ := normal_form od.ready hg hn hsm hest hB
  obtain ⟨J', G', hJ', hH', hW'⟩ := normal_form od.ready' hg' hn' hsm' hest' hD
  have hH2 := (hH'.relabel e hI).congr (C' := kPre g.hd.a.length g.S A (ent ms.mu.unck.flatten)) fun i hi q => by
    unfold kPre
    simp only [hEI i hi]
    rw [hu i hi, hal, hS]
  have hW2 : ∀ i i', i < ms.mu.ks.length → i' < ms.mu.ks.length → ∑ c ∈ range g'.hd.mu.values.length, G' (I i) c * G' (I i') c =
      ms.mu.pairing (B i) (ms.mu.covMul (B i')) / (ent ms.mu.unck.flatten i * ent ms.mu.unck.flatten i') := by
    intro i i' hi hi'
    rw [hW' _ _ (hIl i hi) (hIl i' hi'), hu i hi, hu i' hi', hEI i hi, hEI i' hi', od.gram]
  have hsym : Minres.symmetric { o with itnlim := 500 } (fun v => .ok ((J'ᵀ * J') *ᵥ v)) (probes' (g'.hd.mu.values.length + g'.hd.a.length)) =
      Minres.symmetric { o with itnlim := 500 } (fun v => .ok ((Jᵀ * J) *ᵥ v)) (probes (g.hd.mu.values.length + g.hd.a.length)) := by
    have y : (Jᵀ * J).IsSymm := by unfold Matrix.IsSymm; rw [transpose_mul, transpose_transpose]
    have y' : (J'ᵀ * J').IsSymm := by unfold Matrix.IsSymm; rw [transpose_mul, transpose_transpose]
    unfold Minres.symmetric
    rw [checkSymmetric_symm y' (opts := { o with itnlim := 500 }) ho.1 ho.2 (A := fun v => .ok ((J'ᵀ * J') *ᵥ v)) fun v => rfl,
      checkSymmetric_symm y (opts := { o with itnlim := 500 }) ho.1 ho.2 (A := fun v => .ok ((Jᵀ * J) *ᵥ v)) fun v => rfl]
  obtain ⟨b, z, hb, hz, ev⟩ := covariance_elements od.ready hg hV
  obtain ⟨b', z', hb', hz', ev'⟩ := covariance_elements od.ready' hg' hV'
  have hbe := fun j hj => px_entries od.ready hg (j := j) hj (hb j hj)
  have hbe' : ∀ j, j < g.hd.a.length → ∀ d : Fin (g'.hd.mu.values.length + g'.hd.a.length),
      b' j d = if g'.hd.mu.values.length ≤ (d : Nat) then ent (g.S.getD j []) (d - g'.hd.mu.values.length) else 0 := by
    intro j hj d
    rw [← hS]
    exact px_entries od.ready' hg' (by omega) (hb' j (by omega)) d
  have hsum : ∀ i j, i < g.hd.a.length → j < g.hd.a.length → ∑ d, b' i d * (z' i j).getD d 0 = ∑ d, b i d * (z i j).getD d 0 := by
    intro i j hi hj
    obtain ⟨st, hst, hx⟩ := minresObject_solve od.ready hg hJ (hz i j hi hj).1
    obtain ⟨st', hst', hx'⟩ := minresObject_solve od.ready' hg' hJ' (hz' i j (by omega) (by omega)).1
    rw [hx, hx']
    simp only [getD_ofFn]
    exact spans_common hal hH hH2 hW hW2 hsym (hbe j hj) (hbe' j hj) (hbe i hi) (hbe' i hi) hst hst'
  refine ⟨hal, fun i j hi hj => ?_⟩
  have hsum' : ∑ d, b' j d * (z' j i).getD d 0 = ∑ d, b j d * (z j i).getD d 0 := hsum j i hj hi
  rw [ev' i j (by omega) (by omega), ev i j hi hj, hsum i j hi hj, hsum']

end Verif
