import Verif.Spec.NormalEquations
import Verif.Props.Propagation
import Verif.Props.Descent
/-
Property C89: where the solver stops, the normal equations of the errors-in-variables problem hold.
-/
set_option autoImplicit false
namespace Verif
open Finset (sum_congr)
variable {δ : Type}

section
variable {g : GN ℝ δ} {ms : Evaluable ℝ δ} {labels clabels : List String} {m n : Nat} {N : List Nat}

/-- An invertible preconditioner hides nothing of a gradient. -/
theorem preM_injective (h : g.Setup ms labels clabels m N n) (hg : g.Solves ms)
    (hS : ∀ v, v.length = g.hd.a.length → matTVec g.S v = .ok (List.replicate g.hd.a.length 0) → v = List.replicate g.hd.a.length 0) {y : Nat → ℝ}
    (hy : ∀ d, d < N.sum + n + labels.length → ∑ c ∈ Finset.range (N.sum + n + labels.length), g.preM (N.sum + n) c d * y c = 0) :
    ∀ c, c < N.sum + n + labels.length → y c = 0 := by
  obtain ⟨s1, s2, s3⟩ := h.sizes
  have hSl : g.S.length = labels.length := by rw [hg.rows, s2]
  rw [s2] at hS
  have hv := hS (vector labels.length fun q => y (N.sum + n + q)) (vector_length _ _) (by
    rw [matTVec_eq (by rw [vector_length, hSl]), hSl]
    congr 1
    have : List.replicate labels.length (0 : ℝ) = vector labels.length fun _ => 0 := by simp [vector]
    rw [this]
    refine vector_congr fun q hq => ?_
    have h0 := hy (N.sum + n + q) (by omega)
    rw [Finset.sum_range_add] at h0
    rw [Finset.sum_eq_zero (s := Finset.range (N.sum + n)) (fun c hc => by
      have := Finset.mem_range.1 hc
      unfold GN.preM
      rw [if_pos this, if_neg (by omega), zero_mul]), zero_add] at h0
    rw [← h0]
    refine sum_congr rfl fun r hr => ?_
    have hr' := Finset.mem_range.1 hr
    rw [ent_vector hr']
    unfold GN.preM
    rw [if_neg (by omega), if_pos (by omega), Nat.add_sub_cancel_left, Nat.add_sub_cancel_left])
  intro c hc
  by_cases hcv : c < N.sum + n
  · have h0 := hy c hc
    rw [Finset.sum_eq_single c] at h0
    · unfold GN.preM at h0
      rw [if_pos hcv, if_pos rfl, one_mul] at h0
      exact h0
    · intro c' hc' hne
      unfold GN.preM
      by_cases h1 : c' < N.sum + n
      · rw [if_pos h1, if_neg hne, zero_mul]
      · rw [if_neg h1, if_neg (by omega), zero_mul]
    · intro hn
      exact absurd (Finset.mem_range.2 hc) hn
  · obtain ⟨q, rfl⟩ : ∃ q, c = N.sum + n + q := ⟨c - (N.sum + n), by omega⟩
    have hq : q < labels.length := by omega
    have h1 := ent_vector (f := fun q => y (N.sum + n + q)) hq
    rw [hv] at h1
    rw [← h1]
    simp [ent, List.getD, hq]

/-- The elements of the residuals. -/
theorem residual_elements (h : g.Setup ms labels clabels m N n) (hg : g.Solves ms) (hn : ms.mu.Normalisable) {x f : List ℝ} (hx : x.length = N.sum + n + labels.length)
    (hf : g.calcF x = .ok f) {est : Evaluable ℝ δ} (he : (g.estimate x (N.sum + n) ms.mu.idx.Nm.sum).denormalise = .ok est) :
    f.length = N.sum + n + ms.mu.idx.Nm.sum ∧ (∀ c, c < N.sum + n → ent f c = ent x c - ent g.hd.mu.values c) ∧
    ∃ k, ms.kOf est.mu.values (x.drop (N.sum + n)) = .ok k ∧ k.length = ms.mu.idx.Nm.sum ∧
      ∀ i, i < ms.mu.idx.Nm.sum → ent f (N.sum + n + i) = (ent k i - ent ms.mu.ks i) / ent ms.mu.unck.flatten i := by
  obtain ⟨s1, s2, s3⟩ := h.sizes
  have hwf := h.ready.wf
  have hfl : ms.mu.unck.flatten.length = ms.mu.idx.Nm.sum := by rw [List.length_flatten, hwf.unck]
  obtain ⟨est1, k1, p1, p2, p3, hp⟩ := calcF_parts h hx hf
  rw [he] at p1; cases p1
  obtain ⟨est3, t1, t2, t3, t4, t5, t6, t7, t8, t9⟩ := estimate_ok h hx
  rw [he] at t1; cases t1
  have hkk := kOf_estimate t2 t5 t6 t7 t8
  rw [p2, t4] at hkk
  have hks := h.facts.ks
  rw [scaleKs_eq hwf.idx.series h.ready.pairs hwf.unck hwf.ks] at hks
  replace hks := (Except.ok.inj hks).symm
  have l1 : (List.zipWith (fun x1 x2 : ℝ => x1 - x2) (x.take (N.sum + n)) (g.hd.mu.values.take (N.sum + n))).length = N.sum + n := by
    rw [List.length_zipWith, List.length_take, List.length_take, hx, s1]; omega
  refine ⟨?_, ?_, k1, hkk.symm, p3, ?_⟩
  · rw [hp, List.length_append, l1, List.length_zipWith, List.length_zipWith, p3, hfl, s3]
    omega
  · intro c hc
    rw [hp]
    unfold ent
    simp only [List.getD]
    have f1 : c < x.length := by omega
    have f2 : c < g.hd.mu.values.length := by omega
    rw [List.getElem?_append_left (by rw [l1]; exact hc)]
    simp [List.getElem?_zipWith, List.getElem?_take, hc, f1, f2]
  · intro i hi
    rw [hp]
    have l2 : i < k1.length := by rw [p3]; exact hi
    have l3 : i < ms.mu.unck.flatten.length := by rw [hfl]; exact hi
    have l4 : i < ms.mu.ks.length := by rw [hwf.ks]; exact hi
    unfold ent
    simp only [List.getD]
    rw [List.getElem?_append_right (by rw [l1]; omega), l1, Nat.add_sub_cancel_left, hks]
    rw [List.getElem?_zipWith, List.getElem?_zipWith, List.getElem?_zipWith]
    rw [List.getElem?_eq_getElem l2, List.getElem?_eq_getElem l3, List.getElem?_eq_getElem l4]
    simp [sub_div]

/-- A stationary estimate in terms of the derivatives of K. -/
theorem flat_parts (h : g.Setup ms labels clabels m N n) (hg : g.Solves ms) (hn : ms.mu.Normalisable) (hsm : g.Smooth ms labels clabels)
    (hS : ∀ v, v.length = g.hd.a.length → matTVec g.S v = .ok (List.replicate g.hd.a.length 0) → v = List.replicate g.hd.a.length 0) {est : Evaluable ℝ δ}
    (he : (g.estimate g.xyza (N.sum + n) ms.mu.idx.Nm.sum).denormalise = .ok est)
    {B : Nat → Nat → Nat → ℝ} {A : Nat → Nat → ℝ} (hB : ms.KDerivatives est.mu.values (g.xyza.drop (N.sum + n)) B A) {f : List ℝ} (hf : g.calcF g.xyza = .ok f) :
    g.Flat g.xyza ↔ (∀ c, c < N.sum + n → ent f c = -∑ i ∈ Finset.range ms.mu.idx.Nm.sum,
        ent f (N.sum + n + i) / ent ms.mu.unck.flatten i * ∑ p ∈ ms.mu.positions, B i p.1 p.2 * g.root ms (N.sum + n) n p c) ∧
      ∀ q, q < labels.length → ∑ i ∈ Finset.range ms.mu.idx.Nm.sum, ent f (N.sum + n + i) / ent ms.mu.unck.flatten i * A i q = 0 := by
  obtain ⟨s1, s2, s3⟩ := h.sizes
  obtain ⟨js, hj⟩ := h.shaped
  obtain ⟨j1, j2, j3⟩ := jac_elements h hg hn hsm hj rfl he hB
  obtain ⟨hfl, _, _⟩ := residual_elements h hg hn h.xlen hf he
  have hG1 : ∀ c, c < N.sum + n → ∑ r ∈ Finset.range (N.sum + n + ms.mu.idx.Nm.sum), jacM (N.sum + n) js r c * ent f r =
      ent f c + ∑ i ∈ Finset.range ms.mu.idx.Nm.sum, ent f (N.sum + n + i) / ent ms.mu.unck.flatten i * ∑ p ∈ ms.mu.positions, B i p.1 p.2 * g.root ms (N.sum + n) n p c := by
    intro c hc
    rw [Finset.sum_range_add]
    congr 1
    · rw [Finset.sum_eq_single c]
      · rw [j1 c c hc (by omega), if_pos rfl, one_mul]
      · intro r hr hne
        rw [j1 r c (Finset.mem_range.1 hr) (by omega), if_neg hne, zero_mul]
      · intro hn
        exact absurd (Finset.mem_range.2 hc) hn
    · refine sum_congr rfl fun i hi => ?_
      rw [j2 i c (Finset.mem_range.1 hi) hc]
      ring
  have hG2 : ∀ q, q < labels.length → ∑ r ∈ Finset.range (N.sum + n + ms.mu.idx.Nm.sum), jacM (N.sum + n) js r (N.sum + n + q) * ent f r =
      ∑ i ∈ Finset.range ms.mu.idx.Nm.sum, ent f (N.sum + n + i) / ent ms.mu.unck.flatten i * A i q := by
    intro q hq
    rw [Finset.sum_range_add]
    rw [Finset.sum_eq_zero (s := Finset.range (N.sum + n)) (fun r hr => by
      have := Finset.mem_range.1 hr
      rw [j1 r _ this (by omega), if_neg (by omega), zero_mul]), zero_add]
    refine sum_congr rfl fun i hi => ?_
    rw [j3 i q (Finset.mem_range.1 hi) hq]
    ring
  have hgr := prod_bwd_mat hj (y := f) hfl
  have hsw : ∀ d, ∑ r ∈ Finset.range (N.sum + n + ms.mu.idx.Nm.sum), g.prodM (N.sum + n) labels.length js r d * ent f r =
      ∑ c ∈ Finset.range (N.sum + n + labels.length), g.preM (N.sum + n) c d * ∑ r ∈ Finset.range (N.sum + n + ms.mu.idx.Nm.sum), jacM (N.sum + n) js r c * ent f r := by
    intro d
    simp only [GN.prodM, Finset.sum_mul, Finset.mul_sum]
    rw [Finset.sum_comm]
    exact sum_congr rfl fun c _ => sum_congr rfl fun r _ => by ring
  constructor
  · rintro ⟨f', grad, e1, e2, e3⟩
    rw [hf] at e1; cases e1
    have e2' : g.getJPTx f = .ok grad := e2
    rw [hgr] at e2'
    have hz := preM_injective h hg hS (y := fun c => ∑ r ∈ Finset.range (N.sum + n + ms.mu.idx.Nm.sum), jacM (N.sum + n) js r c * ent f r) (by
      intro d hd
      rw [← hsw]
      have h1 := ent_vector (f := fun d => ∑ r ∈ Finset.range (N.sum + n + ms.mu.idx.Nm.sum), g.prodM (N.sum + n) labels.length js r d * ent f r) hd
      rw [← h1]
      have hl : d < grad.length := by
        rw [← Except.ok.inj e2', vector_length]; exact hd
      have := e3 grad[d] (List.getElem_mem hl)
      rw [getElem_ent hl] at this
      rw [← Except.ok.inj e2'] at this
      exact this)
    refine ⟨fun c hc => ?_, fun q hq => ?_⟩
    · have := hz c (by omega)
      rw [hG1 c hc] at this
      linarith
    · have := hz (N.sum + n + q) (by omega)
      rwa [hG2 q hq] at this
  · rintro ⟨h1, h2⟩
    refine ⟨f, _, hf, hgr, ?_⟩
    intro e hmem
    obtain ⟨d, hd, rfl⟩ := List.getElem_of_mem hmem
    rw [vector_length] at hd
    have hd' : d < N.sum + n + labels.length := hd
    rw [getElem_ent (by rw [vector_length]; exact hd), ent_vector hd]
    refine (hsw d).trans (Finset.sum_eq_zero fun c hc => ?_)
    have hc' := Finset.mem_range.1 hc
    by_cases hcv : c < N.sum + n
    · rw [hG1 c hcv, h1 c hcv, neg_add_cancel, mul_zero]
    · obtain ⟨q, rfl⟩ : ∃ q, c = N.sum + n + q := ⟨c - (N.sum + n), by omega⟩
      rw [hG2 q (by omega), h2 q (by omega), mul_zero]

end

/-- **C89.** Where the gradient of the cost is zero, the normal equations of the errors-in-variables problem hold, at the fitted values and the parameters: with the multipliers
`l = (K - k) / u²`, the fitted values are `v₀ - V Bᵀ l` for the declared covariance `V`, and `Aᵀ l = 0`. -/
theorem C89_stationary {ms : Evaluable ℝ δ} {labels clabels : List String} {m : Nat} (h : ms.SolverReady labels clabels m) {g : GN ℝ δ} (hg : g.Solves ms)
    (hn : ms.mu.Normalisable) (hsm : g.Smooth ms labels clabels) {est : Evaluable ℝ δ}
    (he : (g.estimate g.xyza g.hd.mu.values.length g.hd.mu.ks.length).denormalise = .ok est) {B : Nat → Nat → Nat → ℝ} {A : Nat → Nat → ℝ}
    (hB : ms.KDerivatives est.mu.values (g.xyza.drop g.hd.mu.values.length) B A)
    (hS : ∀ v, v.length = g.hd.a.length → matTVec g.S v = .ok (List.replicate g.hd.a.length 0) → v = List.replicate g.hd.a.length 0)
    (hflat : g.Flat g.xyza) : ∃ l, ms.NormalEquations est.mu.values (g.xyza.drop g.hd.mu.values.length) B A l := by
  obtain ⟨N, n, hs⟩ := hg.setup h
  obtain ⟨s1, s2, s3⟩ := hs.sizes
  have hwf := h.wf
  have hkl : ms.mu.ks.length = ms.mu.idx.Nm.sum := hwf.ks
  have hfl : ms.mu.unck.flatten.length = ms.mu.idx.Nm.sum := by rw [List.length_flatten, hwf.unck]
  rw [s1, s3] at he
  rw [s1] at hB ⊢
  obtain ⟨f, _, hf, _⟩ := id hflat
  obtain ⟨p1, p2⟩ := (flat_parts hs hg hn hsm hS he hB hf).1 hflat
  obtain ⟨_, r1, k, r2, r3, r4⟩ := residual_elements hs hg hn hs.xlen hf he
  obtain ⟨est', k', q1, _, _, _, _, q6, q7⟩ := objective_parts hs hg.norm hn hs.xlen hf
  rw [he] at q1; cases q1
  have hu : ∀ i, i < ms.mu.idx.Nm.sum → ent ms.mu.unck.flatten i ≠ 0 := by
    intro i hi
    have hl : i < ms.mu.unck.flatten.length := by rw [hfl]; exact hi
    rw [← getElem_ent hl]
    obtain ⟨u, hu1, hu2⟩ := List.mem_flatten.1 (List.getElem_mem hl)
    exact hn.unck u hu1 _ hu2
  refine ⟨fun i => ent f (N.sum + n + i) / ent ms.mu.unck.flatten i, ⟨k, r2, ?_⟩, ?_, ?_⟩
  · intro i hi
    rw [hkl] at hi
    have h0 := hu i hi
    have := r4 i hi
    rw [this]
    unfold ent at h0 ⊢
    field_simp
  · intro b r hb hr
    have hp := positions_mem hb hr
    have e1 := q6 _ hp
    have e2 := q7 _ hp
    simp only at e1 e2
    rw [e2, e1, covMul_eq, gram_apply (P := ms.mu.positions) (V := fun p p' => ms.mu.declaredCov p.1 p.2 p'.1 p'.2) (M := g.root ms (N.sum + n) n) (root_gram hs)
      (fun p => ∑ i ∈ Finset.range ms.mu.ks.length, ent f (N.sum + n + i) / ent ms.mu.unck.flatten i * B i p.1 p.2) hp, ← Finset.sum_sub_distrib]
    refine sum_congr rfl fun c hc => ?_
    have hc' := Finset.mem_range.1 hc
    have e3 := (r1 c hc').symm.trans (p1 c hc')
    have e4 : ∑ p' ∈ ms.mu.positions, g.root ms (N.sum + n) n p' c * ∑ i ∈ Finset.range ms.mu.ks.length, ent f (N.sum + n + i) / ent ms.mu.unck.flatten i * B i p'.1 p'.2 =
        ∑ i ∈ Finset.range ms.mu.idx.Nm.sum, ent f (N.sum + n + i) / ent ms.mu.unck.flatten i * ∑ p ∈ ms.mu.positions, B i p.1 p.2 * g.root ms (N.sum + n) n p c := by
      rw [hkl]
      simp only [Finset.mul_sum]
      rw [Finset.sum_comm]
      exact sum_congr rfl fun i _ => sum_congr rfl fun p _ => by ring
    rw [e4]
    linear_combination g.root ms (N.sum + n) n ⟨b, r⟩ c * e3
  · intro j hj
    rw [hkl]
    refine p2 j ?_
    rw [List.length_drop, hs.xlen] at hj
    omega

/-- The multipliers of the normal equations are `Q⁻¹` times the differences between K, linearised at the fitted values and taken to the measured ones, and the K of the files. -/
theorem normal_multipliers {ms : Evaluable ℝ δ} {v a : List ℝ} {B : Nat → Nat → Nat → ℝ} {A : Nat → Nat → ℝ} {l : Nat → ℝ} (h : ms.NormalEquations v a B A l) {k : List ℝ}
    (hk : ms.kOf v a = .ok k) :
    (kCovM ms.mu B).mulVec (fun i : Fin ms.mu.ks.length => l i) = fun i : Fin ms.mu.ks.length => k.getD i 0 - ms.mu.ks.getD i 0 - ms.mu.pairing (B i) (fun b r => ms.mu.elem v b r - ms.mu.elem ms.mu.values b r) := by
  obtain ⟨⟨k', h1, h2⟩, h3, _⟩ := h
  rw [hk] at h1; cases h1
  funext i
  have e1 : (kCovM ms.mu B).mulVec (fun i : Fin ms.mu.ks.length => l i) i = ms.mu.unck.flatten.getD i 0 * ms.mu.unck.flatten.getD i 0 * l i + ∑ i' : Fin ms.mu.ks.length,
      ms.mu.pairing (B i) (ms.mu.covMul (B i')) * l i' := by
    have hd : ∀ i' : Fin ms.mu.ks.length, kCovM ms.mu B i i' * l i' = (if i = i' then ms.mu.unck.flatten.getD i 0 * ms.mu.unck.flatten.getD i 0 * l i' else 0) +
        ms.mu.pairing (B i) (ms.mu.covMul (B i')) * l i' := by
      intro i'
      show ms.mu.kCov B i i' * l i' = _
      unfold MatchUp.kCov
      rw [add_mul]
      congr 1
      by_cases hii : i = i'
      · rw [if_pos hii, if_pos (by rw [hii])]
      · rw [if_neg hii, if_neg (fun h => hii (Fin.ext h)), zero_mul]
    show ∑ i' : Fin ms.mu.ks.length, kCovM ms.mu B i i' * l i' = _
    rw [Finset.sum_congr rfl fun i' _ => hd i', Finset.sum_add_distrib, Finset.sum_ite_eq, if_pos (Finset.mem_univ i)]
  have e2 : ms.mu.pairing (B i) (fun b r => ms.mu.elem v b r - ms.mu.elem ms.mu.values b r) = -∑ i' : Fin ms.mu.ks.length, ms.mu.pairing (B i) (ms.mu.covMul (B i')) * l i' := by
    rw [Fin.sum_univ_eq_sum_range (fun i' => ms.mu.pairing (B i) (ms.mu.covMul (B i')) * l i') ms.mu.ks.length, pairing_eq, ← Finset.sum_neg_distrib]
    have q1 : ∀ p ∈ ms.mu.positions, B i p.1 p.2 * (ms.mu.elem v p.1 p.2 - ms.mu.elem ms.mu.values p.1 p.2) =
        ∑ i' ∈ Finset.range ms.mu.ks.length, -(B i p.1 p.2 * ms.mu.covMul (B i') p.1 p.2 * l i') := by
      intro p hp
      obtain ⟨p1, p2⟩ := mem_positions hp
      have hc : ms.mu.covMul (fun b' r' => ∑ i ∈ Finset.range ms.mu.ks.length, l i * B i b' r') p.1 p.2 = ∑ i' ∈ Finset.range ms.mu.ks.length, ms.mu.covMul (B i') p.1 p.2 * l i' := by
        simp only [covMul_eq, Finset.mul_sum, Finset.sum_mul]
        rw [Finset.sum_comm]
        exact sum_congr rfl fun i' _ => sum_congr rfl fun p' _ => by ring
      rw [h3 p.1 p.2 (List.getElem?_eq_some_iff.1 p1).1 p2, hc, sub_right_comm, sub_self, zero_sub, mul_neg, Finset.mul_sum, ← Finset.sum_neg_distrib]
      exact sum_congr rfl fun i' _ => by ring
    rw [sum_congr rfl q1, Finset.sum_comm]
    refine sum_congr rfl fun i' _ => ?_
    rw [pairing_eq, Finset.sum_mul, Finset.sum_neg_distrib]
  rw [e1, e2, h2 i i.2]
  ring

/-- **C89, generalised least squares.** The normal equations say that the parameters are those of generalised least squares, for the model linearised at the fitted values: with `ρ` the
differences between K, taken to the measured values, and the K of the files, `Aᵀ Q⁻¹ ρ = 0`, where `Q` is the covariance which the declared uncertainties give to K. -/
theorem C89_gls {ms : Evaluable ℝ δ} {v a : List ℝ} {B : Nat → Nat → Nat → ℝ} {A : Nat → Nat → ℝ} {l : Nat → ℝ} (h : ms.NormalEquations v a B A l)
    (hQ : IsUnit (kCovM ms.mu B).det) {k : List ℝ} (hk : ms.kOf v a = .ok k) :
    ((kParM ms.mu.ks.length a.length A).transpose * (kCovM ms.mu B)⁻¹).mulVec (fun i : Fin ms.mu.ks.length =>
      k.getD i 0 - ms.mu.ks.getD i 0 - ms.mu.pairing (B i) (fun b r => ms.mu.elem v b r - ms.mu.elem ms.mu.values b r)) = 0 := by
  rw [← normal_multipliers h hk, Matrix.mulVec_mulVec, Matrix.mul_assoc, Matrix.nonsing_inv_mul _ hQ, Matrix.mul_one]
  funext j
  have h0 := h.parameters j j.2
  rw [← Fin.sum_univ_eq_sum_range (fun i => l i * A i j)] at h0
  refine Eq.trans ?_ h0
  show ∑ i : Fin ms.mu.ks.length, A i j * l i = _
  exact Finset.sum_congr rfl fun i _ => mul_comm _ _

/-- For affine models the derivatives are constant. -/
theorem AffineK.derivatives {ms : Evaluable ℝ δ} {P : Nat} {B : Nat → Nat → Nat → ℝ} {A : Nat → Nat → ℝ} (h : ms.AffineK P B A) {v a : List ℝ}
    (hv : v.length = ms.mu.values.length) (ha : a.length = P) : ms.KDerivatives v a B A := by
  intro dv da hdv hda
  have hall : ∀ t, ∃ k', ms.kOf (along v dv t) (along a da t) = .ok k' := by
    intro t
    obtain ⟨_, k', _, h2, _⟩ := h v a (along v dv t) (along a da t) hv (by rw [along_length hdv.symm, hv]) ha (by rw [along_length hda.symm, ha])
    exact ⟨k', h2⟩
  obtain ⟨k0, hk0⟩ : ∃ k0, ms.kOf v a = .ok k0 := by
    obtain ⟨k, _, h1, _⟩ := h v a v a hv hv ha ha
    exact ⟨k, h1⟩
  choose F hF using hall
  refine ⟨F, hF, ?_⟩
  intro i hi
  have e : (fun t => (F t).getD i 0) = fun t => k0.getD i 0 + t * (ms.mu.pairing (B i) (ms.mu.elem dv) + ∑ j ∈ Finset.range a.length, A i j * da.getD j 0) := by
    funext t
    obtain ⟨k, k', h1, h2, h3⟩ := h v a (along v dv t) (along a da t) hv (by rw [along_length hdv.symm, hv]) ha (by rw [along_length hda.symm, ha])
    rw [hk0] at h1; cases h1
    rw [hF t] at h2; cases h2
    have h4 := h3 i hi
    have h5 : ms.mu.pairing (B i) (fun b r => ms.mu.elem (along v dv t) b r - ms.mu.elem v b r) = t * ms.mu.pairing (B i) (ms.mu.elem dv) := by
      unfold MatchUp.pairing
      simp only [elem_along hdv.symm, Finset.mul_sum]
      exact sum_congr rfl fun b _ => sum_congr rfl fun r _ => by ring
    have h6 : ∑ j ∈ Finset.range P, A i j * ((along a da t).getD j 0 - a.getD j 0) = t * ∑ j ∈ Finset.range a.length, A i j * da.getD j 0 := by
      rw [ha, Finset.mul_sum]
      refine sum_congr rfl fun j _ => ?_
      have := ent_along_at hda.symm t j
      unfold ent at this
      rw [this]
      ring
    rw [h5, h6] at h4
    linarith
  rw [e]
  simpa using ((hasDerivAt_id (0 : ℝ)).mul_const (ms.mu.pairing (B i) (ms.mu.elem dv) + ∑ j ∈ Finset.range a.length, A i j * da.getD j 0)).const_add (k0.getD i 0)

/-- **C89, closed form.** For affine models, parameters which satisfy the normal equations are the generalised-least-squares parameters: from any parameters `a₀`, the estimator of
generalised least squares leads to them. -/
theorem C89_closed_form {ms : Evaluable ℝ δ} {v a a0 k0 : List ℝ} {B : Nat → Nat → Nat → ℝ} {A : Nat → Nat → ℝ} {l : Nat → ℝ} (hK : ms.AffineK a.length B A)
    (h : ms.NormalEquations v a B A l) (hv : v.length = ms.mu.values.length) (hQ : IsUnit (kCovM ms.mu B).det)
    (hI : IsUnit ((kParM ms.mu.ks.length a.length A).transpose * (kCovM ms.mu B)⁻¹ * kParM ms.mu.ks.length a.length A).det) (ha0 : a0.length = a.length)
    (hk0 : ms.kOf ms.mu.values a0 = .ok k0) (j : Fin a.length) :
    a.getD j 0 = a0.getD j 0 + (glsEstimator ms.mu a.length B A).mulVec (fun i : Fin ms.mu.ks.length => ms.mu.ks.getD i 0 - k0.getD i 0) j := by
  obtain ⟨k, k', h1, h2, h3⟩ := hK ms.mu.values a0 v a rfl hv ha0 rfl
  rw [hk0] at h1; cases h1
  have hg := C89_gls h hQ h2
  have e1 : (fun i : Fin ms.mu.ks.length => k'.getD i 0 - ms.mu.ks.getD i 0 - ms.mu.pairing (B i) (fun b r => ms.mu.elem v b r - ms.mu.elem ms.mu.values b r)) =
      (kParM ms.mu.ks.length a.length A).mulVec (fun j => a.getD j 0 - a0.getD j 0) - fun i : Fin ms.mu.ks.length => ms.mu.ks.getD i 0 - k0.getD i 0 := by
    funext i
    have h4 := h3 i i.2
    have h5 : (kParM ms.mu.ks.length a.length A).mulVec (fun j => a.getD j 0 - a0.getD j 0) i = ∑ j ∈ Finset.range a.length, A i j * (a.getD j 0 - a0.getD j 0) := by
      rw [← Fin.sum_univ_eq_sum_range (fun j => A i j * (a.getD j 0 - a0.getD j 0))]
      rfl
    rw [Pi.sub_apply, h5]
    linarith
  rw [e1, Matrix.mulVec_sub, sub_eq_zero, Matrix.mulVec_mulVec] at hg
  have e2 : (fun j : Fin a.length => a.getD j 0 - a0.getD j 0) = (glsEstimator ms.mu a.length B A).mulVec (fun i : Fin ms.mu.ks.length => ms.mu.ks.getD i 0 - k0.getD i 0) := by
    unfold glsEstimator
    rw [Matrix.mul_assoc, ← Matrix.mulVec_mulVec, ← hg, Matrix.mulVec_mulVec]
    unfold propagatedCov
    rw [Matrix.nonsing_inv_mul _ hI, Matrix.one_mulVec]
  have := congrFun e2 j
  linarith

/-- **C89, least variance.** The estimator of generalised least squares reproduces changes of the parameters; if the K have the covariance `Q` which the declared uncertainties give,
then the parameters it yields have the propagated covariance, and no other linear estimator which reproduces changes of the parameters has a smaller variance for any combination of
parameters. -/
theorem C89_least_variance {mu : MatchUp ℝ δ} {P : Nat} {B : Nat → Nat → Nat → ℝ} {A : Nat → Nat → ℝ} (hQs : ∀ i i', mu.kCov B i i' = mu.kCov B i' i)
    (hQ0 : ∀ y, 0 ≤ dotProduct y ((kCovM mu B).mulVec y)) (hQ : IsUnit (kCovM mu B).det)
    (hI : IsUnit ((kParM mu.ks.length P A).transpose * (kCovM mu B)⁻¹ * kParM mu.ks.length P A).det) :
    glsEstimator mu P B A * kParM mu.ks.length P A = 1 ∧ glsEstimator mu P B A * kCovM mu B * (glsEstimator mu P B A).transpose = propagatedCov mu P B A ∧
    ∀ L : Matrix (Fin P) (Fin mu.ks.length) ℝ, L * kParM mu.ks.length P A = 1 → ∀ c : Fin P → ℝ,
      dotProduct c ((propagatedCov mu P B A).mulVec c) ≤ dotProduct c ((L * kCovM mu B * L.transpose).mulVec c) := by
  have hsym : (kCovM mu B).transpose = kCovM mu B := by
    ext i i'
    exact hQs i' i
  generalize hq : kCovM mu B = Q at *
  generalize hA : kParM mu.ks.length P A = M at *
  have hsi : (Q⁻¹).transpose = Q⁻¹ := by rw [Matrix.transpose_nonsing_inv, hsym]
  have hC : propagatedCov mu P B A = (M.transpose * Q⁻¹ * M)⁻¹ := by unfold propagatedCov; rw [hq, hA]
  have hCs : ((M.transpose * Q⁻¹ * M)⁻¹).transpose = (M.transpose * Q⁻¹ * M)⁻¹ := by
    rw [Matrix.transpose_nonsing_inv]
    congr 1
    rw [Matrix.transpose_mul, Matrix.transpose_mul, hsi, Matrix.transpose_transpose, Matrix.mul_assoc]
  have hL : glsEstimator mu P B A = (M.transpose * Q⁻¹ * M)⁻¹ * M.transpose * Q⁻¹ := by unfold glsEstimator; rw [hC, hq, hA]
  have h1 : glsEstimator mu P B A * M = 1 := by
    rw [hL, Matrix.mul_assoc, Matrix.mul_assoc, ← Matrix.mul_assoc M.transpose, Matrix.nonsing_inv_mul _ hI]
  have h2 : glsEstimator mu P B A * Q = (M.transpose * Q⁻¹ * M)⁻¹ * M.transpose := by
    rw [hL, Matrix.mul_assoc, Matrix.nonsing_inv_mul _ hQ, Matrix.mul_one]
  have h3 : ∀ L : Matrix (Fin P) (Fin mu.ks.length) ℝ, L * M = 1 → glsEstimator mu P B A * Q * L.transpose = propagatedCov mu P B A := by
    intro L hl
    rw [h2, Matrix.mul_assoc, ← Matrix.transpose_mul, hl, Matrix.transpose_one, Matrix.mul_one, hC]
  refine ⟨h1, h3 _ h1, ?_⟩
  intro L hl c
  have h4 : L * Q * (glsEstimator mu P B A).transpose = propagatedCov mu P B A := by
    have := congrArg Matrix.transpose (h3 L hl)
    rw [Matrix.transpose_mul, Matrix.transpose_transpose, Matrix.transpose_mul, hsym, hC, hCs, ← Matrix.mul_assoc] at this
    rw [hC]; exact this
  have h5 : L * Q * L.transpose = (L - glsEstimator mu P B A) * Q * (L - glsEstimator mu P B A).transpose + propagatedCov mu P B A := by
    rw [Matrix.transpose_sub, Matrix.sub_mul, Matrix.sub_mul, Matrix.mul_sub, Matrix.mul_sub, h4, h3 L hl, h3 _ h1]
    abel
  rw [h5, Matrix.add_mulVec, dotProduct_add]
  have h6 := hQ0 ((L - glsEstimator mu P B A).transpose.mulVec c)
  have h7 : dotProduct c (((L - glsEstimator mu P B A) * Q * (L - glsEstimator mu P B A).transpose).mulVec c) =
      dotProduct ((L - glsEstimator mu P B A).transpose.mulVec c) (Q.mulVec ((L - glsEstimator mu P B A).transpose.mulVec c)) := by
    rw [← Matrix.mulVec_mulVec, ← Matrix.mulVec_mulVec, Matrix.dotProduct_mulVec, ← Matrix.mulVec_transpose]
  linarith

/-- **C89, affine models.** Where the gradient of the cost is zero, the parameters are the generalised-least-squares parameters, in closed form, whatever the estimate the solver
started from and the preconditioner; the parameter covariance it reports, with exact linear solves, is the covariance of this estimator, and no linear estimator which reproduces changes of
the parameters has a smaller variance. -/
theorem C89_affine {ms : Evaluable ℝ δ} {labels clabels : List String} {m : Nat} (h : ms.SolverReady labels clabels m) {g : GN ℝ δ} (hg : g.Solves ms)
    (hn : ms.mu.Normalisable) (hsm : g.Smooth ms labels clabels) {B : Nat → Nat → Nat → ℝ} {A : Nat → Nat → ℝ} (hK : ms.AffineK g.hd.a.length B A)
    (hA : Identifies A ms.mu.ks.length g.hd.a.length)
    (hS : ∀ v, v.length = g.hd.a.length → matTVec g.S v = .ok (List.replicate g.hd.a.length 0) → v = List.replicate g.hd.a.length 0)
    (hflat : g.Flat g.xyza) :
    (∀ a0 k0, a0.length = g.hd.a.length → ms.kOf ms.mu.values a0 = .ok k0 → ∀ j : Fin g.hd.a.length,
      g.xyza.getD (g.hd.mu.values.length + j) 0 = a0.getD j 0 + (glsEstimator ms.mu g.hd.a.length B A).mulVec (fun i : Fin ms.mu.ks.length => ms.mu.ks.getD i 0 - k0.getD i 0) j) ∧
    (∀ minres : GN ℝ δ → List ℝ → Py (List ℝ), (∀ b, b.length = g.hd.mu.values.length + g.hd.a.length → ∃ z, minres g b = .ok z ∧ z.length = b.length ∧ g.calcHx z = .ok b) →
      ∃ V, g.covariance minres = .ok V ∧ ∀ i j : Fin g.hd.a.length,
        (V.getD i []).getD j 0 = (glsEstimator ms.mu g.hd.a.length B A * kCovM ms.mu B * (glsEstimator ms.mu g.hd.a.length B A).transpose) i j) ∧
    glsEstimator ms.mu g.hd.a.length B A * kParM ms.mu.ks.length g.hd.a.length A = 1 ∧
    ∀ L : Matrix (Fin g.hd.a.length) (Fin ms.mu.ks.length) ℝ, L * kParM ms.mu.ks.length g.hd.a.length A = 1 → ∀ c : Fin g.hd.a.length → ℝ,
      dotProduct c ((glsEstimator ms.mu g.hd.a.length B A * kCovM ms.mu B * (glsEstimator ms.mu g.hd.a.length B A).transpose).mulVec c) ≤
        dotProduct c ((L * kCovM ms.mu B * L.transpose).mulVec c) := by
  obtain ⟨N, n, hs⟩ := hg.setup h
  obtain ⟨s1, s2, s3⟩ := hs.sizes
  obtain ⟨f, _, hf, _⟩ := id hflat
  obtain ⟨est, _, q1, _, _, q4, _⟩ := objective_parts hs hg.norm hn hs.xlen hf
  have he : (g.estimate g.xyza g.hd.mu.values.length g.hd.mu.ks.length).denormalise = .ok est := by rw [s1, s3]; exact q1
  have hal : (g.xyza.drop g.hd.mu.values.length).length = g.hd.a.length := by rw [List.length_drop, hs.xlen, s1, s2]; omega
  have hB := AffineK.derivatives hK q4 hal
  obtain ⟨m1, m2, _⟩ := C88_columns h hg hn hsm he hB hA
  obtain ⟨l, hl⟩ := C89_stationary h hg hn hsm he hB hS hflat
  have hlv := C89_least_variance (P := g.hd.a.length) (A := A) (B := B) (mu := ms.mu) (by
    intro i i'
    unfold MatchUp.kCov
    rw [kCov_root hs, kCov_root hs]
    congr 1
    · by_cases hii : i = i'
      · rw [if_pos hii, if_pos hii.symm, hii]
      · rw [if_neg hii, if_neg (Ne.symm hii)]
    · exact sum_congr rfl fun c _ => mul_comm _ _) (by
    intro y
    show 0 ≤ ∑ i, y i * (kCovM ms.mu B).mulVec y i
    rw [kCovM_form hs]
    exact add_nonneg (Finset.sum_nonneg fun i _ => sq_nonneg _) (Finset.sum_nonneg fun i _ => sq_nonneg _)) m1 m2
  refine ⟨?_, ?_, hlv.1, ?_⟩
  · intro a0 k0 ha0 hk0 j
    have hj : (g.xyza.drop g.hd.mu.values.length).getD j 0 = g.xyza.getD (g.hd.mu.values.length + j) 0 := by simp [List.getD, List.getElem?_drop]
    rw [← hj]
    generalize hP : g.hd.a.length = P at *
    subst hal
    exact C89_closed_form hK hl q4 m1 m2 ha0 hk0 j
  · intro minres hsolve
    obtain ⟨_, _, V, v1, v2⟩ := C88_covariance_partial h hg hn hsm he hB hA hS minres hsolve
    exact ⟨V, v1, fun i j => by rw [v2 i j, hlv.2.1]⟩
  · intro L hL c
    rw [hlv.2.1]
    exact hlv.2.2 L hL c

/-- **C89, the converse.** Values and parameters which satisfy the normal equations are those of an estimate of the solver at which the gradient is zero. -/
theorem C89_converse {ms : Evaluable ℝ δ} {labels clabels : List String} {m : Nat} (h : ms.SolverReady labels clabels m) {g : GN ℝ δ} (hg : g.Solves ms)
    (hn : ms.mu.Normalisable) (hS : ∀ v, v.length = g.hd.a.length → matTVec g.S v = .ok (List.replicate g.hd.a.length 0) → v = List.replicate g.hd.a.length 0)
    {v a : List ℝ} (hv : v.length = ms.mu.values.length) (ha : a.length = g.hd.a.length) {B : Nat → Nat → Nat → ℝ} {A : Nat → Nat → ℝ} (hB : ms.KDerivatives v a B A) {l : Nat → ℝ}
    (hl : ms.NormalEquations v a B A l) :
    ∃ x est, x.length = g.xyza.length ∧ x.drop g.hd.mu.values.length = a ∧ (g.estimate x g.hd.mu.values.length g.hd.mu.ks.length).denormalise = .ok est ∧ est.mu.values = v ∧
      ((g.move x).Smooth ms labels clabels → g.Flat x) := by
  obtain ⟨N, n, hs⟩ := hg.setup h
  obtain ⟨s1, s2, s3⟩ := hs.sizes
  have hwf := h.wf
  have hkl : ms.mu.ks.length = ms.mu.idx.Nm.sum := hwf.ks
  have hfl : ms.mu.unck.flatten.length = ms.mu.idx.Nm.sum := by rw [List.length_flatten, hwf.unck]
  let x : List ℝ := (vector (N.sum + n) fun c => ent g.hd.mu.values c - ∑ i ∈ Finset.range ms.mu.ks.length, l i * ∑ p ∈ ms.mu.positions, B i p.1 p.2 * g.root ms (N.sum + n) n p c) ++ a
  have hxl : x.length = N.sum + n + labels.length := by
    show (_ ++ a).length = _
    rw [List.length_append, vector_length, ha, s2]
  have hxd : x.drop (N.sum + n) = a := by
    show (_ ++ a).drop _ = a
    rw [List.drop_append_of_le_length (by rw [vector_length]), List.drop_of_length_le (by rw [vector_length]), List.nil_append]
  have hxe : ∀ c, c < N.sum + n → ent x c = ent g.hd.mu.values c - ∑ i ∈ Finset.range ms.mu.ks.length, l i * ∑ p ∈ ms.mu.positions, B i p.1 p.2 * g.root ms (N.sum + n) n p c := by
    intro c hc
    have e := ent_vector (f := fun c => ent g.hd.mu.values c - ∑ i ∈ Finset.range ms.mu.ks.length, l i * ∑ p ∈ ms.mu.positions, B i p.1 p.2 * g.root ms (N.sum + n) n p c) hc
    have hap : ∀ F : Nat → ℝ, ent (vector (N.sum + n) F ++ a) c = ent (vector (N.sum + n) F) c := by
      intro F
      unfold ent
      simp only [List.getD]
      rw [List.getElem?_append_left (by rw [vector_length]; exact hc)]
    exact (hap _).trans e
  have hgx : (g.move x).Solves ms := ⟨hg.norm, by show x.length = _; rw [hxl]; show _ = g.hd.mu.values.length + g.hd.a.length; rw [s1, s2], hg.rows, hg.cols⟩
  obtain ⟨f, hf, _⟩ := calcF_total hs hxl
  obtain ⟨est, k', q1, _, _, q4, _, q6, q7⟩ := objective_parts hs hg.norm hn hxl hf
  have hval : est.mu.values = v := by
    refine values_ext hwf.values q4 hv fun p hp => ?_
    obtain ⟨p1, p2⟩ := mem_positions hp
    rw [q7 p hp, hl.values p.1 p.2 (List.getElem?_eq_some_iff.1 p1).1 p2, q6 p hp, covMul_eq,
      gram_apply (P := ms.mu.positions) (V := fun p p' => ms.mu.declaredCov p.1 p.2 p'.1 p'.2) (M := g.root ms (N.sum + n) n) (root_gram hs)
      (fun p => ∑ i ∈ Finset.range ms.mu.ks.length, l i * B i p.1 p.2) hp, ← Finset.sum_sub_distrib]
    refine sum_congr rfl fun c hc => ?_
    rw [hxe c (Finset.mem_range.1 hc), mul_sub]
    congr 2
    simp only [Finset.mul_sum]
    rw [Finset.sum_comm]
    exact sum_congr rfl fun i _ => sum_congr rfl fun p _ => by ring
  refine ⟨x, est, by rw [hxl, hs.xlen], by rw [s1]; exact hxd, by rw [s1, s3]; exact q1, hval, ?_⟩
  intro hsm
  have hsx : (g.move x).Setup ms labels clabels m N n := ⟨h, hs.facts, hs.hd, hxl, hs.S_len, hs.S_row⟩
  obtain ⟨_, r1, k, r2, r3, r4⟩ := residual_elements hs hg hn hxl hf q1
  rw [hval, hxd] at r2
  obtain ⟨⟨k2, l1, l2⟩, _, l4⟩ := hl
  rw [r2] at l1; cases l1
  have hu : ∀ i, i < ms.mu.idx.Nm.sum → ent ms.mu.unck.flatten i ≠ 0 := by
    intro i hi
    have hl : i < ms.mu.unck.flatten.length := by rw [hfl]; exact hi
    rw [← getElem_ent hl]
    obtain ⟨u, hu1, hu2⟩ := List.mem_flatten.1 (List.getElem_mem hl)
    exact hn.unck u hu1 _ hu2
  have hli : ∀ i, i < ms.mu.idx.Nm.sum → ent f (N.sum + n + i) / ent ms.mu.unck.flatten i = l i := by
    intro i hi
    have h0 := hu i hi
    have h1 := l2 i (by rw [hkl]; exact hi)
    rw [r4 i hi]
    unfold ent at h0 ⊢
    rw [← h1]
    field_simp
  have hB' : ms.KDerivatives est.mu.values ((g.move x).xyza.drop (N.sum + n)) B A := by
    rw [hval]
    show ms.KDerivatives v (x.drop (N.sum + n)) B A
    rw [hxd]; exact hB
  refine (flat_parts hsx hgx hn hsm hS q1 hB' hf).2 ⟨fun c hc => ?_, fun q hq => ?_⟩
  · rw [r1 c hc, hxe c hc, sub_right_comm, sub_self, zero_sub, hkl]
    congr 1
    refine sum_congr rfl fun i hi => ?_
    rw [hli i (Finset.mem_range.1 hi)]
    rfl
  · have h0 := l4 q (by rw [ha, s2]; exact hq)
    rw [hkl] at h0
    rw [← h0]
    exact sum_congr rfl fun i hi => by rw [hli i (Finset.mem_range.1 hi)]

end Verif
