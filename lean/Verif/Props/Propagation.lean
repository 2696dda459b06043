import Verif.Lemmas.Propagation
import Verif.Props.CovMinres
/-
C88: the covariance of the parameters is what propagation of the declared uncertainties gives.
-/
set_option autoImplicit false
namespace Verif
open Finset (sum_congr)
variable {δ : Type}

section
variable {g : GN ℝ δ} {ms : Evaluable ℝ δ} {labels clabels : List String} {m n : Nat} {N : List Nat}

theorem getElem_ent {l : List ℝ} {k : Nat} (h : k < l.length) : l[k] = ent l k := by simp [ent, List.getD, h]

theorem elem_along {mu : MatchUp ℝ δ} {v d : List ℝ} (h : v.length = d.length) (t : ℝ) (b r : Nat) : mu.elem (along v d t) b r = mu.elem v b r + t * mu.elem d b r := by
  unfold MatchUp.elem along
  generalize (mu.idx.N_var.take b).sum + r = k
  by_cases hk : k < v.length
  · have hk' : k < d.length := by omega
    simp [List.getD, List.getElem?_zipWith, hk, hk']
  · have hk' : ¬ k < d.length := by omega
    have e1 : v[k]? = none := by simp; omega
    have e2 : d[k]? = none := by simp; omega
    simp [List.getD, List.getElem?_zipWith, e1, e2]

theorem ent_along_at {v d : List ℝ} (h : v.length = d.length) (t : ℝ) (k : Nat) : ent (along v d t) k = ent v k + t * ent d k := by
  unfold ent along
  by_cases hk : k < v.length
  · have hk' : k < d.length := by omega
    simp [List.getD, List.getElem?_zipWith, hk, hk']
  · have e1 : v[k]? = none := by simp; omega
    have e2 : d[k]? = none := by simp; omega
    simp [List.getD, List.getElem?_zipWith, e1, e2]

/-- The products of the Jacobian in terms of the derivatives of K. -/
theorem jac_product (h : g.Setup ms labels clabels m N n) (hg : g.Solves ms) (hn : ms.mu.Normalisable) (hsm : g.Smooth ms labels clabels)
    {js : List (SeriesJ ℝ)} {ctx : ProdCtx} (hj : g.Shaped ctx labels ms.mu.idx.Nm.sum js) (hctx : ctx.N_var = N.sum + n) {est : Evaluable ℝ δ}
    (he : (g.estimate g.xyza (N.sum + n) ms.mu.idx.Nm.sum).denormalise = .ok est)
    {B : Nat → Nat → Nat → ℝ} {A : Nat → Nat → ℝ} (hB : ms.KDerivatives est.mu.values (g.xyza.drop (N.sum + n)) B A) {z : List ℝ} (hz : z.length = N.sum + n + labels.length)
    {r : Nat} (hr : r < N.sum + n + ms.mu.idx.Nm.sum) :
    ∑ c ∈ Finset.range (N.sum + n + labels.length), jacM (N.sum + n) js r c * ent z c =
      if r < N.sum + n then ent z r else
        (∑ p ∈ ms.mu.positions, B (r - (N.sum + n)) p.1 p.2 * (∑ c ∈ Finset.range (N.sum + n), g.root ms (N.sum + n) n p c * ent z c) +
          ∑ q ∈ Finset.range labels.length, A (r - (N.sum + n)) q * ent z (N.sum + n + q)) / ent ms.mu.unck.flatten (r - (N.sum + n)) := by
  obtain ⟨s1, s2, s3⟩ := h.sizes
  obtain ⟨i1, i2⟩ := identS_shape (α := ℝ) labels.length
  have hji := Shaped.withS hj i1 i2
  have hg1 : ({ g with S := identS labels.length } : GN ℝ δ).Solves ms := ⟨hg.norm, hg.xyza, by rw [i1]; exact s2.symm, fun r hr => by rw [i2 r hr]; exact s2.symm⟩
  obtain ⟨w, u, hw, hu, hwl, hul, F, hF, hd⟩ := C30_jacobian h.ready hg1 (show ({ g with S := identS labels.length } : GN ℝ δ).Smooth ms labels clabels from hsm) z
    (by show z.length = g.hd.mu.values.length + g.hd.a.length; rw [s1, s2]; exact hz)
  have hwl' : w.length = N.sum + n + labels.length := hwl.trans h.xlen
  rw [← hctx] at hz
  have hwz : w = z := by
    have := calcPx_fwd hji hz
    rw [hw] at this
    rw [Except.ok.inj this]
    apply List.ext_getElem
    · simp [hz]
    · intro c h1 h2
      have hc : c < ctx.N_var + labels.length := by simpa using h1
      have : ∑ d ∈ Finset.range (ctx.N_var + labels.length), ({ g with S := identS labels.length } : GN ℝ δ).preM ctx.N_var c d * ent z d = ent z c := by
        rw [sum_congr rfl fun d hd => by rw [preM_ident hc (Finset.mem_range.1 hd)]]
        simp only [ite_mul, one_mul, zero_mul]
        rw [Finset.sum_ite_eq, if_pos (Finset.mem_range.2 hc)]
      have e := ent_vector (f := fun c => ∑ d ∈ Finset.range (ctx.N_var + labels.length), ({ g with S := identS labels.length } : GN ℝ δ).preM ctx.N_var c d * ent z d) hc
      rw [this] at e
      have e4 : ∀ (l : List ℝ) (hl : c < l.length), l[c] = ent l c := fun l hl => by simp [ent, List.getD, hl]
      rw [e4 _ h1, e4 _ h2]
      exact e
  subst hwz
  have huJ : ent u r = ∑ c ∈ Finset.range (N.sum + n + labels.length), jacM (N.sum + n) js r c * ent w c := by
    have := prod_fwd_mat hji hz
    rw [hu] at this
    rw [Except.ok.inj this, hctx, ent_vector hr]
    exact sum_congr rfl fun c hc => by rw [prodM_ident (Finset.mem_range.1 hc)]
  rw [← huJ]
  have hul' : u.length = N.sum + n + ms.mu.idx.Nm.sum := by
    have hul2 : u.length = g.hd.mu.values.length + g.hd.mu.ks.length := hul
    rw [hul2, s1, s3]
  have hdr := hd r (by rw [hul']; exact hr)
  have hxw : g.xyza.length = w.length := hwl.symm
  have hFp : ∀ t, g.calcF (along g.xyza w t) = .ok (F t) := fun t => (hF t).1
  have hxt : ∀ t, (along g.xyza w t).length = N.sum + n + labels.length := fun t => by rw [along_length hxw, h.xlen]
  by_cases hrv : r < N.sum + n
  · rw [if_pos hrv]
    have e : (fun t => (F t).getD r 0) = fun t => ent g.xyza r + t * ent w r - ent g.hd.mu.values r := by
      funext t
      obtain ⟨_, _, _, _, _, hp⟩ := calcF_parts h (hxt t) (hFp t)
      have hla : r < (List.zipWith (· - ·) ((along g.xyza w t).take (N.sum + n)) (g.hd.mu.values.take (N.sum + n))).length := by
        rw [List.length_zipWith, List.length_take, List.length_take, hxt, s1]; omega
      rw [hp]
      have e3 := ent_along_at hxw t r
      unfold ent at e3 ⊢
      rw [← e3]
      have f1 : r < (along g.xyza w t).length := by rw [hxt]; omega
      have f2 : r < g.hd.mu.values.length := by rw [s1]; exact hrv
      simp only [List.getD]
      rw [List.getElem?_append_left hla]
      simp [List.getElem?_zipWith, List.getElem?_take, hrv, f1, f2]
    rw [e] at hdr
    have hd2 : HasDerivAt (fun t : ℝ => ent g.xyza r + t * ent w r - ent g.hd.mu.values r) (ent w r) 0 := by
      have := (((hasDerivAt_id (0 : ℝ)).mul_const (ent w r)).const_add (ent g.xyza r)).sub_const (ent g.hd.mu.values r)
      simpa using this
    exact hdr.unique hd2
  · rw [if_neg hrv]
    obtain ⟨i, rfl⟩ : ∃ i, r = N.sum + n + i := ⟨r - (N.sum + n), by omega⟩
    have hi : i < ms.mu.idx.Nm.sum := by omega
    rw [Nat.add_sub_cancel_left]
    have hwf := h.ready.wf
    have hkl : ms.mu.ks.length = ms.mu.idx.Nm.sum := hwf.ks
    have hfl : ms.mu.unck.flatten.length = ms.mu.idx.Nm.sum := by rw [List.length_flatten, hwf.unck]
    -- the change of the values
    obtain ⟨f0, hf0, _⟩ := calcF_total h h.xlen
    obtain ⟨est0, k0, q1, q2, q3, q4, q5, q6, q7⟩ := objective_parts h hg.norm hn h.xlen hf0
    rw [he] at q1; cases q1
    obtain ⟨dv, hdvl, hdv⟩ := exists_values ms.mu (fun b r => ∑ c ∈ Finset.range (N.sum + n), g.root ms (N.sum + n) n ⟨b, r⟩ c * ent w c)
    have hdvl' : est.mu.values.length = dv.length := by rw [q4, hdvl, hwf.values]
    have hal : (g.xyza.drop (N.sum + n)).length = (w.drop (N.sum + n)).length := by rw [List.length_drop, List.length_drop, hxw]
    obtain ⟨G, hG, hGd⟩ := hB dv (w.drop (N.sum + n)) hdvl'.symm hal.symm
    have key : ∀ t, (F t).getD (N.sum + n + i) 0 = (G t).getD i 0 / ent ms.mu.unck.flatten i - ent g.hd.mu.ks i := by
      intro t
      obtain ⟨est1, k1, p1, p2, p3, hp⟩ := calcF_parts h (hxt t) (hFp t)
      obtain ⟨est2, k2, r1, r2, r3, r4, r5, r6, r7⟩ := objective_parts h hg.norm hn (hxt t) (hFp t)
      rw [p1] at r1; cases r1
      obtain ⟨est3, t1, t2, t3, t4, t5, t6, t7, t8, t9⟩ := estimate_ok h (hxt t)
      rw [p1] at t1; cases t1
      have hval : est1.mu.values = along est.mu.values dv t := by
        refine values_ext hwf.values r4 (by rw [along_length hdvl', q4]) fun p hp => ?_
        rw [elem_along hdvl', r7 p hp, q7 p hp, hdv p hp]
        simp only [ent_along_at hxw, mul_add, Finset.sum_add_distrib, Finset.mul_sum]
        congr 1
        exact sum_congr rfl fun c _ => by ring
      have hkk := kOf_estimate t2 t5 t6 t7 t8
      rw [p2, t4, hval, along_drop, hG t] at hkk
      have hkG : k1 = G t := Except.ok.inj hkk
      rw [hp, hkG]
      have l1 : (List.zipWith (fun x1 x2 : ℝ => x1 - x2) ((along g.xyza w t).take (N.sum + n)) (g.hd.mu.values.take (N.sum + n))).length = N.sum + n := by
        rw [List.length_zipWith, List.length_take, List.length_take, hxt, s1]; omega
      have l2 : i < (G t).length := by rw [← hkG, p3]; exact hi
      have l3 : i < ms.mu.unck.flatten.length := by rw [hfl]; exact hi
      have l4 : i < g.hd.mu.ks.length := by rw [s3]; exact hi
      unfold ent
      simp only [List.getD]
      rw [List.getElem?_append_right (by rw [l1]; omega), l1, Nat.add_sub_cancel_left]
      rw [List.getElem?_zipWith, List.getElem?_zipWith]
      rw [List.getElem?_eq_getElem l2, List.getElem?_eq_getElem l3, List.getElem?_eq_getElem l4]
      rfl
    have hd2 := ((hGd i (by rw [hkl]; exact hi)).div_const (ent ms.mu.unck.flatten i)).sub_const (ent g.hd.mu.ks i)
    have e : (fun t => (F t).getD (N.sum + n + i) 0) = fun t => (G t).getD i 0 / ent ms.mu.unck.flatten i - ent g.hd.mu.ks i := funext key
    rw [e] at hdr
    have := hdr.unique hd2
    refine Eq.trans this ?_
    congr 2
    · rw [pairing_eq]
      refine sum_congr rfl fun p hp => ?_
      rw [hdv p hp]
    · rw [List.length_drop, h.xlen, Nat.add_sub_cancel_left]
      refine sum_congr rfl fun q _ => ?_
      unfold ent
      simp [List.getD, List.getElem?_drop]

/-- The elements of the Jacobian. -/
theorem jac_elements (h : g.Setup ms labels clabels m N n) (hg : g.Solves ms) (hn : ms.mu.Normalisable) (hsm : g.Smooth ms labels clabels)
    {js : List (SeriesJ ℝ)} {ctx : ProdCtx} (hj : g.Shaped ctx labels ms.mu.idx.Nm.sum js) (hctx : ctx.N_var = N.sum + n) {est : Evaluable ℝ δ}
    (he : (g.estimate g.xyza (N.sum + n) ms.mu.idx.Nm.sum).denormalise = .ok est)
    {B : Nat → Nat → Nat → ℝ} {A : Nat → Nat → ℝ} (hB : ms.KDerivatives est.mu.values (g.xyza.drop (N.sum + n)) B A) :
    (∀ r c, r < N.sum + n → c < N.sum + n + labels.length → jacM (N.sum + n) js r c = if r = c then 1 else 0) ∧
    (∀ i c, i < ms.mu.idx.Nm.sum → c < N.sum + n → jacM (N.sum + n) js (N.sum + n + i) c =
      (∑ p ∈ ms.mu.positions, B i p.1 p.2 * g.root ms (N.sum + n) n p c) / ent ms.mu.unck.flatten i) ∧
    ∀ i q, i < ms.mu.idx.Nm.sum → q < labels.length → jacM (N.sum + n) js (N.sum + n + i) (N.sum + n + q) = A i q / ent ms.mu.unck.flatten i := by
  have key := fun (c r : Nat) (hc : c < N.sum + n + labels.length) (hr : r < N.sum + n + ms.mu.idx.Nm.sum) =>
    (dot_unitV hc fun d => jacM (N.sum + n) js r d).symm.trans
      (jac_product h hg hn hsm hj hctx he hB (z := unitV (N.sum + n + labels.length) c) (by simp [unitV]) hr)
  refine ⟨?_, ?_, ?_⟩
  · intro r c hr hc
    rw [key c r hc (by omega), if_pos hr, ent_unitV (by omega)]
  · intro i c hi hc
    rw [key c _ (by omega) (by omega), if_neg (by omega), Nat.add_sub_cancel_left]
    congr 1
    rw [Finset.sum_eq_zero (s := Finset.range labels.length) (fun q hq => by
      have := Finset.mem_range.1 hq
      rw [ent_unitV (by omega), if_neg (by omega), mul_zero]), add_zero]
    refine sum_congr rfl fun p _ => ?_
    congr 1
    rw [sum_congr rfl fun d hd => by rw [ent_unitV (show d < N.sum + n + labels.length by have := Finset.mem_range.1 hd; omega)]]
    simp only [mul_ite, mul_one, mul_zero]
    rw [Finset.sum_ite_eq' (Finset.range (N.sum + n)) c, if_pos (Finset.mem_range.2 hc)]
  · intro i q hi hq
    rw [key _ _ (show N.sum + n + q < N.sum + n + labels.length by omega) (show N.sum + n + i < N.sum + n + ms.mu.idx.Nm.sum by omega), if_neg (by omega),
      Nat.add_sub_cancel_left]
    congr 1
    rw [Finset.sum_eq_zero (s := ms.mu.positions) (fun p _ => by
      rw [Finset.sum_eq_zero (fun c hc => by
        have := Finset.mem_range.1 hc
        rw [ent_unitV (by omega), if_neg (by omega), mul_zero]), mul_zero]), zero_add]
    rw [sum_congr rfl fun d hd => by rw [ent_unitV (show N.sum + n + d < N.sum + n + labels.length by have := Finset.mem_range.1 hd; omega)]]
    simp only [mul_ite, mul_one, mul_zero, Nat.add_left_cancel_iff]
    rw [Finset.sum_ite_eq' (Finset.range labels.length) q, if_pos (Finset.mem_range.2 hq)]

/-- The covariance of K through the root of the declared covariance. -/
theorem kCov_root (h : g.Setup ms labels clabels m N n) (B : Nat → Nat → Nat → ℝ) (i i' : Nat) :
    ms.mu.pairing (B i) (ms.mu.covMul (B i')) = ∑ c ∈ Finset.range (N.sum + n),
      (∑ p ∈ ms.mu.positions, B i p.1 p.2 * g.root ms (N.sum + n) n p c) * ∑ p ∈ ms.mu.positions, B i' p.1 p.2 * g.root ms (N.sum + n) n p c := by
  rw [pairing_eq]
  simp only [covMul_eq]
  rw [sum_congr rfl fun p hp => by
    rw [gram_apply (P := ms.mu.positions) (V := fun p p' => ms.mu.declaredCov p.1 p.2 p'.1 p'.2) (M := g.root ms (N.sum + n) n) (root_gram h) (fun p => B i' p.1 p.2) hp]]
  rw [pair_apply (P := ms.mu.positions) (M := g.root ms (N.sum + n) n) (fun p => B i p.1 p.2)]
  refine sum_congr rfl fun c _ => ?_
  congr 1
  · exact sum_congr rfl fun p _ => mul_comm _ _
  · exact sum_congr rfl fun p _ => mul_comm _ _

/-- The quadratic form of the covariance of K is a sum of squares. -/
theorem kCovM_form (h : g.Setup ms labels clabels m N n) (B : Nat → Nat → Nat → ℝ) (y : Fin ms.mu.ks.length → ℝ) :
    ∑ i, y i * (kCovM ms.mu B).mulVec y i = ∑ i : Fin ms.mu.ks.length, (ent ms.mu.unck.flatten i * y i) ^ 2 +
      ∑ c ∈ Finset.range (N.sum + n), (∑ i : Fin ms.mu.ks.length, y i * ∑ p ∈ ms.mu.positions, B i p.1 p.2 * g.root ms (N.sum + n) n p c) ^ 2 := by
  have hrow : ∀ i : Fin ms.mu.ks.length, y i * (kCovM ms.mu B).mulVec y i = (ent ms.mu.unck.flatten i * y i) ^ 2 + ∑ c ∈ Finset.range (N.sum + n),
      (y i * ∑ p ∈ ms.mu.positions, B i p.1 p.2 * g.root ms (N.sum + n) n p c) * ∑ i' : Fin ms.mu.ks.length, y i' * ∑ p ∈ ms.mu.positions, B i' p.1 p.2 * g.root ms (N.sum + n) n p c := by
    intro i
    have e1 : (kCovM ms.mu B).mulVec y i = ent ms.mu.unck.flatten i * ent ms.mu.unck.flatten i * y i + ∑ i' : Fin ms.mu.ks.length,
        ms.mu.pairing (B i) (ms.mu.covMul (B i')) * y i' := by
      show ∑ i' : Fin ms.mu.ks.length, ms.mu.kCov B i i' * y i' = _
      unfold MatchUp.kCov
      simp only [add_mul, Finset.sum_add_distrib, Fin.val_inj, ite_mul, zero_mul]
      rw [Finset.sum_ite_eq, if_pos (Finset.mem_univ _)]
    rw [e1, mul_add]
    congr 1
    · ring
    · simp only [kCov_root h, Finset.mul_sum (s := Finset.univ), Finset.sum_mul (s := Finset.range (N.sum + n))]
      rw [Finset.sum_comm]
      refine sum_congr rfl fun i' _ => ?_
      rw [Finset.mul_sum]
      refine sum_congr rfl fun c _ => ?_
      ring
  rw [sum_congr rfl fun i _ => hrow i, Finset.sum_add_distrib]
  congr 1
  rw [Finset.sum_comm]
  refine sum_congr rfl fun c _ => ?_
  rw [← Finset.sum_mul, sq]

theorem kCovM_injective (h : g.Setup ms labels clabels m N n) (hu : ∀ u ∈ ms.mu.unck, ∀ a ∈ u, a ≠ 0) (B : Nat → Nat → Nat → ℝ) (y : Fin ms.mu.ks.length → ℝ)
    (hy : (kCovM ms.mu B).mulVec y = 0) : y = 0 := by
  have hwf := h.ready.wf
  have hkl : ms.mu.ks.length = ms.mu.idx.Nm.sum := hwf.ks
  have hfl : ms.mu.unck.flatten.length = ms.mu.ks.length := by rw [List.length_flatten, hwf.unck, hkl]
  have h0 : ∑ i, y i * (kCovM ms.mu B).mulVec y i = 0 := by rw [hy]; simp
  have e := kCovM_form h B y
  rw [e] at h0
  have p1 : 0 ≤ ∑ i : Fin ms.mu.ks.length, (ent ms.mu.unck.flatten i * y i) ^ 2 := Finset.sum_nonneg fun i _ => sq_nonneg _
  have p2 : 0 ≤ ∑ c ∈ Finset.range (N.sum + n), (∑ i : Fin ms.mu.ks.length, y i * ∑ p ∈ ms.mu.positions, B i p.1 p.2 * g.root ms (N.sum + n) n p c) ^ 2 := Finset.sum_nonneg fun i _ => sq_nonneg _
  have p3 : ∑ i : Fin ms.mu.ks.length, (ent ms.mu.unck.flatten i * y i) ^ 2 = 0 := by linarith
  funext i
  have p4 := (Finset.sum_eq_zero_iff_of_nonneg fun i _ => sq_nonneg _).1 p3 i (Finset.mem_univ _)
  have p5 : ent ms.mu.unck.flatten i * y i = 0 := by simpa using p4
  rcases mul_eq_zero.1 p5 with p6 | p6
  · exfalso
    have hlt : i.1 < ms.mu.unck.flatten.length := by rw [hfl]; exact i.2
    have hm : ms.mu.unck.flatten[i.1] ∈ ms.mu.unck.flatten := List.getElem_mem hlt
    obtain ⟨l, hl, ha⟩ := List.mem_flatten.1 hm
    refine hu l hl _ ha ?_
    exact (getElem_ent hlt).trans p6
  · exact p6
end

/-- **C88, the exact covariance.** The columns of the inverse of `JᵀJ` which belong to the parameters exist, and their elements are the covariance of the parameters which
generalised least squares gives for the declared uncertainties. -/
theorem C88_columns {ms : Evaluable ℝ δ} {labels clabels : List String} {m : Nat} (h : ms.SolverReady labels clabels m) {g : GN ℝ δ} (hg : g.Solves ms)
    (hn : ms.mu.Normalisable) (hsm : g.Smooth ms labels clabels) {est : Evaluable ℝ δ}
    (he : (g.estimate g.xyza g.hd.mu.values.length g.hd.mu.ks.length).denormalise = .ok est) {B : Nat → Nat → Nat → ℝ} {A : Nat → Nat → ℝ}
    (hB : ms.KDerivatives est.mu.values (g.xyza.drop g.hd.mu.values.length) B A) (hA : Identifies A ms.mu.ks.length g.hd.a.length) :
    IsUnit (kCovM ms.mu B).det ∧ IsUnit ((kParM ms.mu.ks.length g.hd.a.length A).transpose * (kCovM ms.mu B)⁻¹ * kParM ms.mu.ks.length g.hd.a.length A).det ∧
    ∃ cov : Nat → List ℝ, (∀ j, j < g.hd.a.length → (cov j).length = g.hd.mu.values.length + g.hd.a.length ∧
      ({ g with S := identS g.hd.a.length } : GN ℝ δ).calcHx (cov j) = .ok (unitV (g.hd.mu.values.length + g.hd.a.length) (g.hd.mu.values.length + j))) ∧
      ∀ i j : Fin g.hd.a.length, (cov j).getD (g.hd.mu.values.length + i) 0 = propagatedCov ms.mu g.hd.a.length B A i j := by
  obtain ⟨N, n, hs⟩ := hg.setup h
  obtain ⟨js, hj⟩ := hs.shaped
  obtain ⟨s1, s2, s3⟩ := hs.sizes
  have hwf := h.wf
  have hkl : ms.mu.ks.length = ms.mu.idx.Nm.sum := hwf.ks
  have hfl : ms.mu.unck.flatten.length = ms.mu.idx.Nm.sum := by rw [List.length_flatten, hwf.unck]
  rw [s1, s3] at he
  rw [s1] at hB
  obtain ⟨e1, e2, e3⟩ := jac_elements hs hg hn hsm hj rfl he hB
  have hu : ∀ i, i < ms.mu.idx.Nm.sum → ent ms.mu.unck.flatten i ≠ 0 := by
    intro i hi h0
    have hlt : i < ms.mu.unck.flatten.length := by rw [hfl]; exact hi
    obtain ⟨l, hl, ha⟩ := List.mem_flatten.1 (List.getElem_mem hlt)
    exact hn.unck l hl _ ha ((getElem_ent hlt).trans h0)
  obtain ⟨i1, i2⟩ := identS_shape (α := ℝ) labels.length
  have hji := Shaped.withS hj i1 i2
  have hg1 : ({ g with S := identS labels.length } : GN ℝ δ).Solves ms := ⟨hg.norm, hg.xyza, by rw [i1]; exact s2.symm, fun r hr => by rw [i2 r hr]; exact s2.symm⟩
  -- the columns
  have hsol : ∀ b : List ℝ, b.length = g.hd.mu.values.length + g.hd.a.length → ∃! z : List ℝ, z.length = b.length ∧ ({ g with S := identS labels.length } : GN ℝ δ).calcHx z = .ok b := by
    intro b hb
    refine C31_solvable h hg1 ?_ b hb
    intro x hx hx0
    have hx' : x.length = N.sum + n + labels.length := by
      have : x.length = g.hd.mu.values.length + g.hd.a.length := hx
      rw [this, s1, s2]
    have hp := prod_fwd_mat hji hx'
    have hx1 : ({ g with S := identS labels.length } : GN ℝ δ).getJPx x = .ok (List.replicate (g.hd.mu.values.length + g.hd.mu.ks.length) 0) := hx0
    rw [hp, s1, s3] at hx1
    have hrep : List.replicate (N.sum + n + ms.mu.idx.Nm.sum) (0 : ℝ) = vector (N.sum + n + ms.mu.idx.Nm.sum) fun _ => 0 := by simp [vector]
    rw [hrep] at hx1
    have hz := vector_inj (Except.ok.inj hx1)
    have hz' : ∀ r, r < N.sum + n + ms.mu.idx.Nm.sum → ∑ c ∈ Finset.range (N.sum + n + labels.length), jacM (N.sum + n) js r c * ent x c = 0 := by
      intro r hr
      rw [← hz r hr]
      exact sum_congr rfl fun c hc => by rw [prodM_ident (Finset.mem_range.1 hc)]
    have hv0 : ∀ r, r < N.sum + n → ent x r = 0 := by
      intro r hr
      have := hz' r (by omega)
      rw [jac_product hs hg hn hsm hj rfl he hB hx' (by omega), if_pos hr] at this
      exact this
    have ha0 : ∀ q, q < labels.length → ent x (N.sum + n + q) = 0 := by
      rw [s2, hkl] at hA
      refine hA (fun q => ent x (N.sum + n + q)) ?_
      intro i hi
      have := hz' (N.sum + n + i) (by omega)
      rw [jac_product hs hg hn hsm hj rfl he hB hx' (by omega), if_neg (by omega), Nat.add_sub_cancel_left] at this
      rw [Finset.sum_eq_zero (s := ms.mu.positions) (fun p _ => by
        rw [Finset.sum_eq_zero (fun c hc => by rw [hv0 c (Finset.mem_range.1 hc), mul_zero]), mul_zero]), zero_add] at this
      exact (div_eq_zero_iff.1 this).resolve_right (hu i hi)
    apply List.ext_getElem
    · simp
    · intro k h1 h2
      have : ent x k = 0 := by
        by_cases hk : k < N.sum + n
        · exact hv0 k hk
        · have := ha0 (k - (N.sum + n)) (by omega)
          rwa [show N.sum + n + (k - (N.sum + n)) = k by omega] at this
      simpa [ent, List.getD, h1] using this
  have hcol : ∀ j, ∃ c : List ℝ, j < labels.length → c.length = N.sum + n + labels.length ∧
      ({ g with S := identS labels.length } : GN ℝ δ).calcHx c = .ok (unitV (N.sum + n + labels.length) (N.sum + n + j)) := by
    intro j
    obtain ⟨c, ⟨c1, c2⟩, _⟩ := hsol (unitV (N.sum + n + labels.length) (N.sum + n + j)) (by rw [s1, s2]; simp [unitV])
    exact ⟨c, fun _ => ⟨by rw [c1]; simp [unitV], c2⟩⟩
  choose cov hcov using hcol
  -- the weights
  have hw : ∀ j, ∃ w : Nat → ℝ, j < labels.length → (∀ q, q < labels.length → ∑ i ∈ Finset.range ms.mu.idx.Nm.sum, A i q * w i = if q = j then 1 else 0) ∧
      ∀ i, i < ms.mu.idx.Nm.sum → ent ms.mu.unck.flatten i * ent ms.mu.unck.flatten i * w i + ∑ i' ∈ Finset.range ms.mu.idx.Nm.sum,
        ms.mu.pairing (B i) (ms.mu.covMul (B i')) * w i' = ∑ q ∈ Finset.range labels.length, A i q * ent (cov j) (N.sum + n + q) := by
    intro j
    by_cases hjl : j < labels.length
    · obtain ⟨c1, c2⟩ := hcov j hjl
      have hc := calcHx_mat hji c1
      rw [c2] at hc
      obtain ⟨w, w1, w2⟩ := schur (Nv := N.sum + n) (nl := labels.length) (Nm := ms.mu.idx.Nm.sum) (j := j) (J := jacM (N.sum + n) js)
        (G := fun i c => ∑ p ∈ ms.mu.positions, B i p.1 p.2 * g.root ms (N.sum + n) n p c) (A := A) (u := ent ms.mu.unck.flatten) (z := ent (cov j)) hu e1 e2 e3 (by
          intro c hcl
          have := congrArg (fun l => ent l c) (Except.ok.inj hc)
          simp only at this
          rw [ent_unitV hcl, ent_vector hcl] at this
          rw [this]
          refine sum_congr rfl fun r _ => ?_
          rw [prodM_ident hcl]
          congr 1
          exact sum_congr rfl fun d hd => by rw [prodM_ident (Finset.mem_range.1 hd)]) hjl
      refine ⟨w, fun _ => ⟨w1, fun i hi => ?_⟩⟩
      rw [← w2 i hi]
      congr 1
      exact sum_congr rfl fun i' _ => by rw [kCov_root hs]
    · exact ⟨fun _ => 0, fun h => absurd h hjl⟩
  choose w hw using hw
  have hmat := gls_inverse_matrix (Q := kCovM ms.mu B) (A := kParM ms.mu.ks.length g.hd.a.length A) (W := Matrix.of fun i j => w j i)
    (C := Matrix.of fun i j => ent (cov j) (N.sum + n + i)) (kCovM_injective hs hn.unck B) (by
      ext i j
      obtain ⟨_, w2⟩ := hw j (by rw [← s2]; exact j.2)
      have := w2 i (by rw [← hkl]; exact i.2)
      rw [Matrix.mul_apply, Matrix.mul_apply]
      show ∑ i' : Fin ms.mu.ks.length, ms.mu.kCov B i i' * w j i' = ∑ q : Fin g.hd.a.length, A i q * ent (cov j) (N.sum + n + q)
      have e5 : ∑ q : Fin g.hd.a.length, A i q * ent (cov j) (N.sum + n + q) = ∑ q ∈ Finset.range labels.length, A i q * ent (cov j) (N.sum + n + q) := by
        rw [← s2, Finset.sum_range]
      rw [e5, ← this]
      unfold MatchUp.kCov
      simp only [add_mul, Finset.sum_add_distrib, Fin.val_inj, ite_mul, zero_mul]
      rw [Finset.sum_ite_eq, if_pos (Finset.mem_univ _), ← hkl, Finset.sum_range]) (by
      ext q j
      obtain ⟨w1, _⟩ := hw j (by rw [← s2]; exact j.2)
      have := w1 q (by rw [← s2]; exact q.2)
      rw [Matrix.mul_apply, Matrix.one_apply]
      show ∑ i : Fin ms.mu.ks.length, A i q * w j i = _
      rw [← hkl, Finset.sum_range] at this
      rw [this]
      simp [Fin.val_inj])
  obtain ⟨m1, m2, m3⟩ := hmat
  refine ⟨m1, m2, cov, ?_, ?_⟩
  · intro j hjl
    rw [s1]
    rw [s2] at hjl ⊢
    exact hcov j hjl
  · intro i j
    have := congrFun (congrFun m3 i) j
    rw [s1]
    exact this

section
variable {g : GN ℝ δ} {ms : Evaluable ℝ δ} {labels clabels : List String} {m n : Nat} {N : List Nat}

/-- K along a line of estimates. -/
theorem k_along (h : g.Setup ms labels clabels m N n) (hg : g.Solves ms) (hn : ms.mu.Normalisable) {est : Evaluable ℝ δ}
    (he : (g.estimate g.xyza (N.sum + n) ms.mu.idx.Nm.sum).denormalise = .ok est) {w dv : List ℝ} (hw : w.length = N.sum + n + labels.length)
    (hdl : dv.length = est.mu.values.length) (hdv : ∀ p ∈ ms.mu.positions, ms.mu.elem dv p.1 p.2 = ∑ c ∈ Finset.range (N.sum + n), g.root ms (N.sum + n) n p c * ent w c)
    {t : ℝ} {F : List ℝ} (hF : g.calcF (along g.xyza w t) = .ok F) :
    ∃ k, ms.kOf (along est.mu.values dv t) (along (g.xyza.drop (N.sum + n)) (w.drop (N.sum + n)) t) = .ok k ∧
      ∀ i, i < ms.mu.idx.Nm.sum → F.getD (N.sum + n + i) 0 = k.getD i 0 / ent ms.mu.unck.flatten i - ent g.hd.mu.ks i := by
  obtain ⟨s1, s2, s3⟩ := h.sizes
  have hwf := h.ready.wf
  have hxw : g.xyza.length = w.length := by rw [h.xlen, hw]
  have hxt : (along g.xyza w t).length = N.sum + n + labels.length := by rw [along_length hxw, h.xlen]
  have hfl : ms.mu.unck.flatten.length = ms.mu.idx.Nm.sum := by rw [List.length_flatten, hwf.unck]
  obtain ⟨f0, hf0, _⟩ := calcF_total h h.xlen
  obtain ⟨est0, k0, q1, q2, q3, q4, q5, q6, q7⟩ := objective_parts h hg.norm hn h.xlen hf0
  rw [he] at q1; cases q1
  obtain ⟨est1, k1, p1, p2, p3, hp⟩ := calcF_parts h hxt hF
  obtain ⟨est2, k2, r1, r2, r3, r4, r5, r6, r7⟩ := objective_parts h hg.norm hn hxt hF
  rw [p1] at r1; cases r1
  obtain ⟨est3, t1, t2, t3, t4, t5, t6, t7, t8, t9⟩ := estimate_ok h hxt
  rw [p1] at t1; cases t1
  have hval : est1.mu.values = along est.mu.values dv t := by
    refine values_ext hwf.values r4 (by rw [along_length hdl.symm, q4]) fun p hp => ?_
    rw [elem_along hdl.symm, r7 p hp, q7 p hp, hdv p hp]
    simp only [ent_along_at hxw, mul_add, Finset.sum_add_distrib, Finset.mul_sum]
    congr 1
    exact sum_congr rfl fun c _ => by ring
  have hkk := kOf_estimate t2 t5 t6 t7 t8
  rw [p2, t4, hval, along_drop] at hkk
  refine ⟨k1, hkk.symm, ?_⟩
  intro i hi
  rw [hp]
  have l1 : (List.zipWith (fun x1 x2 : ℝ => x1 - x2) ((along g.xyza w t).take (N.sum + n)) (g.hd.mu.values.take (N.sum + n))).length = N.sum + n := by
    rw [List.length_zipWith, List.length_take, List.length_take, hxt, s1]; omega
  have l2 : i < k1.length := by rw [p3]; exact hi
  have l3 : i < ms.mu.unck.flatten.length := by rw [hfl]; exact hi
  have l4 : i < g.hd.mu.ks.length := by rw [s3]; exact hi
  unfold ent
  simp only [List.getD]
  rw [List.getElem?_append_right (by rw [l1]; omega), l1, Nat.add_sub_cancel_left]
  rw [List.getElem?_zipWith, List.getElem?_zipWith]
  rw [List.getElem?_eq_getElem l2, List.getElem?_eq_getElem l3, List.getElem?_eq_getElem l4]
  rfl

/-- A right inverse of the root of the declared covariance. -/
theorem root_right_inverse (h : g.Setup ms labels clabels m N n) (hn : ms.mu.Normalisable) :
    ∃ R : Nat → (Σ _ : Nat, Nat) → ℝ, ∀ (d : (Σ _ : Nat, Nat) → ℝ), ∀ p ∈ ms.mu.positions,
      ∑ c ∈ Finset.range (N.sum + n), g.root ms (N.sum + n) n p c * (∑ p' ∈ ms.mu.positions, R c p' * d p') = d p := by
  classical
  let V : Matrix ms.mu.positions ms.mu.positions ℝ := Matrix.of fun p p' => ms.mu.declaredCov p.1.1 p.1.2 p'.1.1 p'.1.2
  have hu : IsUnit V.det := by
    rw [← Matrix.isUnit_iff_isUnit_det, ← Matrix.mulVec_injective_iff_isUnit]
    intro a b hab
    have h0 : V.mulVec (a - b) = 0 := by rw [Matrix.mulVec_sub, sub_eq_zero]; exact hab
    let y : Nat → Nat → ℝ := fun b' r => if hp : (⟨b', r⟩ : Σ _ : Nat, Nat) ∈ ms.mu.positions then (a - b) ⟨⟨b', r⟩, hp⟩ else 0
    have hy : ∀ p : ms.mu.positions, y p.1.1 p.1.2 = (a - b) p := fun p => dif_pos p.2
    have hz : ∀ p : ms.mu.positions, ms.mu.covMul y p.1.1 p.1.2 = 0 := by
      intro p
      rw [covMul_eq, ← Finset.sum_coe_sort]
      refine Eq.trans ?_ (congrFun h0 p)
      exact sum_congr rfl fun p' _ => by rw [hy p']; rfl
    have := (cov_definite h.ready hn y).2 (by
      rw [pairing_eq, ← Finset.sum_coe_sort]
      exact Finset.sum_eq_zero fun p _ => by rw [hz p, mul_zero])
    have : a - b = 0 := by
      funext p
      rw [← hy p]
      exact this p.1 p.2
    exact sub_eq_zero.1 this
  let R : Nat → (Σ _ : Nat, Nat) → ℝ := fun c p => if hp : p ∈ ms.mu.positions then ∑ p'' : ms.mu.positions, g.root ms (N.sum + n) n p'' c * V⁻¹ p'' ⟨p, hp⟩ else 0
  refine ⟨R, ?_⟩
  intro d p hp
  have e1 : ∀ c, ∑ p' ∈ ms.mu.positions, R c p' * d p' = ∑ p'' : ms.mu.positions, g.root ms (N.sum + n) n p'' c * (V⁻¹).mulVec (fun p' => d p') p'' := by
    intro c
    rw [← Finset.sum_coe_sort]
    have : ∀ p' : ms.mu.positions, R c p' = ∑ p'' : ms.mu.positions, g.root ms (N.sum + n) n p'' c * V⁻¹ p'' p' := fun p' => dif_pos p'.2
    simp only [this, Matrix.mulVec, dotProduct, Finset.mul_sum, Finset.sum_mul]
    rw [Finset.sum_comm]
    exact sum_congr rfl fun _ _ => sum_congr rfl fun _ _ => by ring
  simp only [e1]
  have e2 : ∑ c ∈ Finset.range (N.sum + n), g.root ms (N.sum + n) n p c * (∑ p'' : ms.mu.positions, g.root ms (N.sum + n) n p'' c * (V⁻¹).mulVec (fun p' => d p') p'') =
      V.mulVec ((V⁻¹).mulVec fun p' => d p') ⟨p, hp⟩ := by
    show _ = ∑ p'' : ms.mu.positions, ms.mu.declaredCov p.1 p.2 p''.1.1 p''.1.2 * (V⁻¹).mulVec (fun p' => d p') p''
    have e3 : ∀ p'' : ms.mu.positions, ms.mu.declaredCov p.1 p.2 p''.1.1 p''.1.2 = ∑ c ∈ Finset.range (N.sum + n), g.root ms (N.sum + n) n p c * g.root ms (N.sum + n) n p''.1 c :=
      fun p'' => root_gram h p hp p''.1 p''.2
    simp only [e3, Finset.mul_sum, Finset.sum_mul]
    rw [Finset.sum_comm]
    exact sum_congr rfl fun _ _ => sum_congr rfl fun _ _ => by ring
  rw [e2, Matrix.mulVec_mulVec, Matrix.mul_nonsing_inv V hu, Matrix.one_mulVec]
end

/-- **C88, the derivatives.** Where the models are smooth and declare their derivatives, K is differentiable in the values and in the parameters. -/
theorem C88_derivatives {ms : Evaluable ℝ δ} {labels clabels : List String} {m : Nat} (h : ms.SolverReady labels clabels m) {g : GN ℝ δ} (hg : g.Solves ms)
    (hn : ms.mu.Normalisable) (hsm : g.Smooth ms labels clabels) :
    ∃ est B A, (g.estimate g.xyza g.hd.mu.values.length g.hd.mu.ks.length).denormalise = .ok est ∧
      ms.KDerivatives est.mu.values (g.xyza.drop g.hd.mu.values.length) B A := by
  obtain ⟨N, n, hs⟩ := hg.setup h
  obtain ⟨js, hj⟩ := hs.shaped
  obtain ⟨s1, s2, s3⟩ := hs.sizes
  have hwf := h.wf
  have hkl : ms.mu.ks.length = ms.mu.idx.Nm.sum := hwf.ks
  have hfl : ms.mu.unck.flatten.length = ms.mu.idx.Nm.sum := by rw [List.length_flatten, hwf.unck]
  obtain ⟨i1, i2⟩ := identS_shape (α := ℝ) labels.length
  have hji := Shaped.withS hj i1 i2
  have hg1 : ({ g with S := identS labels.length } : GN ℝ δ).Solves ms := ⟨hg.norm, hg.xyza, by rw [i1]; exact s2.symm, fun r hr => by rw [i2 r hr]; exact s2.symm⟩
  obtain ⟨R, hR⟩ := root_right_inverse hs hn
  obtain ⟨est, he, _⟩ := estimate_ok hs hs.xlen
  have hu : ∀ i, i < ms.mu.idx.Nm.sum → ent ms.mu.unck.flatten i ≠ 0 := by
    intro i hi h0
    have hlt : i < ms.mu.unck.flatten.length := by rw [hfl]; exact hi
    obtain ⟨l, hl, ha⟩ := List.mem_flatten.1 (List.getElem_mem hlt)
    exact hn.unck l hl _ ha ((getElem_ent hlt).trans h0)
  obtain ⟨f0, hf0, _⟩ := calcF_total hs hs.xlen
  obtain ⟨est0, k0, q1, q2, q3, q4, q5, q6, q7⟩ := objective_parts hs hg.norm hn hs.xlen hf0
  rw [he] at q1; cases q1
  refine ⟨est, fun i b r => ent ms.mu.unck.flatten i * ∑ c ∈ Finset.range (N.sum + n), jacM (N.sum + n) js (N.sum + n + i) c * R c ⟨b, r⟩,
    fun i q => ent ms.mu.unck.flatten i * jacM (N.sum + n) js (N.sum + n + i) (N.sum + n + q), by rw [s1, s3]; exact he, ?_⟩
  rw [s1]
  intro dv da hdv hda
  have hda' : da.length = labels.length := by rw [hda, List.length_drop, hs.xlen]; omega
  obtain ⟨w, hwd⟩ : ∃ w, w = vector (N.sum + n) (fun c => ∑ p ∈ ms.mu.positions, R c p * ms.mu.elem dv p.1 p.2) ++ da := ⟨_, rfl⟩
  have hwl : w.length = N.sum + n + labels.length := by rw [hwd, List.length_append, vector_length, hda']
  have hw1 : ∀ c, c < N.sum + n → ent w c = ∑ p ∈ ms.mu.positions, R c p * ms.mu.elem dv p.1 p.2 := by
    intro c hc
    have : ent w c = ent (vector (N.sum + n) (fun c => ∑ p ∈ ms.mu.positions, R c p * ms.mu.elem dv p.1 p.2)) c := by
      rw [hwd]
      unfold ent
      simp only [List.getD]
      rw [List.getElem?_append_left (by rw [vector_length]; exact hc)]
    rw [this, ent_vector hc]
  have hw2 : w.drop (N.sum + n) = da := by
    rw [hwd, List.drop_append_of_le_length (by rw [vector_length]), List.drop_of_length_le (by rw [vector_length]), List.nil_append]
  have hdve : ∀ p ∈ ms.mu.positions, ms.mu.elem dv p.1 p.2 = ∑ c ∈ Finset.range (N.sum + n), g.root ms (N.sum + n) n p c * ent w c := by
    intro p hp
    rw [sum_congr rfl fun c hc => by rw [hw1 c (Finset.mem_range.1 hc)]]
    exact (hR (fun p => ms.mu.elem dv p.1 p.2) p hp).symm
  obtain ⟨w', u, hw', hu', hwl2, hul, F, hF, hd⟩ := C30_jacobian h hg1 (show ({ g with S := identS labels.length } : GN ℝ δ).Smooth ms labels clabels from hsm) w
    (by show w.length = g.hd.mu.values.length + g.hd.a.length; rw [s1, s2]; exact hwl)
  have hwz : w' = w := by
    have := calcPx_fwd hji hwl
    rw [hw'] at this
    rw [Except.ok.inj this]
    apply List.ext_getElem
    · simp [hwl]
    · intro c h1 h2
      have hc : c < N.sum + n + labels.length := by simpa using h1
      rw [getElem_ent h1, getElem_ent h2]
      refine (ent_vector hc).trans ?_
      show ∑ d ∈ Finset.range (N.sum + n + labels.length), ({ g with S := identS labels.length } : GN ℝ δ).preM (N.sum + n) c d * ent w d = ent w c
      rw [sum_congr rfl fun d hd => by rw [preM_ident hc (Finset.mem_range.1 hd)]]
      simp only [ite_mul, one_mul, zero_mul]
      rw [Finset.sum_ite_eq, if_pos (Finset.mem_range.2 hc)]
  rw [hwz] at hF
  have hK : ∀ t, ∃ k, ms.kOf (along est.mu.values dv t) (along (g.xyza.drop (N.sum + n)) da t) = .ok k ∧
      ∀ i, i < ms.mu.idx.Nm.sum → (F t).getD (N.sum + n + i) 0 = k.getD i 0 / ent ms.mu.unck.flatten i - ent g.hd.mu.ks i := by
    intro t
    have := k_along hs hg hn he hwl hdv hdve (hF t).1
    rw [hw2] at this
    exact this
  choose G hG hGF using hK
  refine ⟨G, hG, ?_⟩
  intro i hi
  rw [hkl] at hi
  have hul' : u.length = N.sum + n + ms.mu.idx.Nm.sum := by
    have hul2 : u.length = g.hd.mu.values.length + g.hd.mu.ks.length := hul
    rw [hul2, s1, s3]
  have hdr := hd (N.sum + n + i) (by rw [hul']; omega)
  have e : (fun t => (G t).getD i 0) = fun t => ent ms.mu.unck.flatten i * ((F t).getD (N.sum + n + i) 0 + ent g.hd.mu.ks i) := by
    funext t
    rw [hGF t i hi]
    have := hu i hi
    field_simp
    ring
  rw [e]
  refine ((hdr.add_const (ent g.hd.mu.ks i)).const_mul (ent ms.mu.unck.flatten i)).congr_deriv ?_
  have huJ : ent u (N.sum + n + i) = ∑ c ∈ Finset.range (N.sum + n + labels.length), jacM (N.sum + n) js (N.sum + n + i) c * ent w c := by
    have := prod_fwd_mat hji hwl
    rw [hu'] at this
    rw [Except.ok.inj this]
    refine (ent_vector (show N.sum + n + i < N.sum + n + ms.mu.idx.Nm.sum by omega)).trans ?_
    exact sum_congr rfl fun c hc => by rw [prodM_ident (Finset.mem_range.1 hc)]
  show ent ms.mu.unck.flatten i * ent u (N.sum + n + i) = _
  rw [huJ, Finset.sum_range_add, mul_add]
  congr 1
  · rw [pairing_eq, sum_congr rfl fun c hc => by rw [hw1 c (Finset.mem_range.1 hc)]]
    simp only [Finset.mul_sum, Finset.sum_mul]
    rw [Finset.sum_comm]
    exact sum_congr rfl fun _ _ => sum_congr rfl fun _ _ => by ring
  · rw [List.length_drop, hs.xlen, Nat.add_sub_cancel_left, Finset.mul_sum]
    refine sum_congr rfl fun q _ => ?_
    have : ent w (N.sum + n + q) = da.getD q 0 := by
      rw [← hw2]
      unfold ent
      simp [List.getD, List.getElem?_drop]
    rw [this]
    ring

/-- **C88, the derivatives are unique**, so that the covariance they define is. -/
theorem C88_unique {ms : Evaluable ℝ δ} {v a : List ℝ} (hv : v.length = ms.mu.idx.N_var.sum) {B B' : Nat → Nat → Nat → ℝ} {A A' : Nat → Nat → ℝ}
    (h : ms.KDerivatives v a B A) (h' : ms.KDerivatives v a B' A') {i : Nat} (hi : i < ms.mu.ks.length) :
    (∀ b r, b < ms.mu.numBlocks → r < ms.mu.blockLen b → B i b r = B' i b r) ∧ ∀ j, j < a.length → A i j = A' i j := by
  have key : ∀ dv da : List ℝ, dv.length = v.length → da.length = a.length →
      ms.mu.pairing (B i) (ms.mu.elem dv) + ∑ j ∈ Finset.range a.length, A i j * da.getD j 0 =
        ms.mu.pairing (B' i) (ms.mu.elem dv) + ∑ j ∈ Finset.range a.length, A' i j * da.getD j 0 := by
    intro dv da h1 h2
    obtain ⟨F, f1, f2⟩ := h dv da h1 h2
    obtain ⟨F', f1', f2'⟩ := h' dv da h1 h2
    have : F' = F := by
      funext t
      have := f1 t
      rw [f1' t] at this
      exact Except.ok.inj this
    rw [this] at f2'
    exact (f2 i hi).unique (f2' i hi)
  have hz : (vector a.length fun _ => (0 : ℝ)).length = a.length := by simp
  have hze : ∀ j, j < a.length → (vector a.length fun _ => (0 : ℝ)).getD j 0 = 0 := fun j hj => ent_vector hj
  have h0 : ∀ f : Nat → ℝ, ∑ j ∈ Finset.range a.length, f j * (vector a.length fun _ => (0 : ℝ)).getD j 0 = 0 := by
    intro f
    exact Finset.sum_eq_zero fun j hj => by rw [hze j (Finset.mem_range.1 hj), mul_zero]
  refine ⟨?_, ?_⟩
  · intro b r hb hr
    obtain ⟨dv, d1, d2⟩ := exists_values ms.mu (fun b' r' => if b' = b ∧ r' = r then (1 : ℝ) else 0)
    have := key dv _ (by rw [d1, hv]) hz
    rw [h0, h0, add_zero, add_zero, pairing_eq, pairing_eq] at this
    have e : ∀ f : Nat → Nat → ℝ, ∑ p ∈ ms.mu.positions, f p.1 p.2 * ms.mu.elem dv p.1 p.2 = f b r := by
      intro f
      rw [Finset.sum_eq_single ⟨b, r⟩]
      · rw [d2 _ (positions_mem hb hr)]; simp
      · rintro ⟨b', r'⟩ hp hne
        rw [d2 _ hp, if_neg, mul_zero]
        rintro ⟨rfl, rfl⟩
        exact hne rfl
      · intro hp
        exact absurd (positions_mem hb hr) hp
    rwa [e, e] at this
  · intro j hj
    obtain ⟨dv, d1, d2⟩ := exists_values ms.mu (fun _ _ => (0 : ℝ))
    have := key dv (unitV a.length j) (by rw [d1, hv]) (by simp [unitV])
    rw [pairing_eq, pairing_eq] at this
    have e : ∀ f : Nat → Nat → ℝ, ∑ p ∈ ms.mu.positions, f p.1 p.2 * ms.mu.elem dv p.1 p.2 = 0 := by
      intro f
      exact Finset.sum_eq_zero fun p hp => by rw [d2 p hp, mul_zero]
    rw [e, e, zero_add, zero_add] at this
    have e2 := fun f : Nat → ℝ => dot_unitV hj f
    unfold ent at e2
    rwa [e2, e2] at this

/-- **C88.** With exact linear solves, the covariance matrix of the parameters which the solver reports is the one which generalised least squares gives for the uncertainties which
the files declare: `(Aᵀ Q⁻¹ A)⁻¹`, where `A` are the derivatives of K with respect to the parameters and `Q` is the covariance of K, from its own uncertainty and from that
of the values through the derivatives `B` of K. -/
theorem C88_covariance_partial {ms : Evaluable ℝ δ} {labels clabels : List String} {m : Nat} (h : ms.SolverReady labels clabels m) {g : GN ℝ δ} (hg : g.Solves ms)
    (hn : ms.mu.Normalisable) (hsm : g.Smooth ms labels clabels) {est : Evaluable ℝ δ}
    (he : (g.estimate g.xyza g.hd.mu.values.length g.hd.mu.ks.length).denormalise = .ok est) {B : Nat → Nat → Nat → ℝ} {A : Nat → Nat → ℝ}
    (hB : ms.KDerivatives est.mu.values (g.xyza.drop g.hd.mu.values.length) B A) (hA : Identifies A ms.mu.ks.length g.hd.a.length)
    (hS : ∀ v, v.length = g.hd.a.length → matTVec g.S v = .ok (List.replicate g.hd.a.length 0) → v = List.replicate g.hd.a.length 0)
    (minres : GN ℝ δ → List ℝ → Py (List ℝ))
    (hsolve : ∀ b, b.length = g.hd.mu.values.length + g.hd.a.length → ∃ z, minres g b = .ok z ∧ z.length = b.length ∧ g.calcHx z = .ok b) :
    IsUnit (kCovM ms.mu B).det ∧ IsUnit ((kParM ms.mu.ks.length g.hd.a.length A).transpose * (kCovM ms.mu B)⁻¹ * kParM ms.mu.ks.length g.hd.a.length A).det ∧
    ∃ V, g.covariance minres = .ok V ∧ ∀ i j : Fin g.hd.a.length, (V.getD i []).getD j 0 = propagatedCov ms.mu g.hd.a.length B A i j := by
  obtain ⟨m1, m2, cov, c1, c2⟩ := C88_columns h hg hn hsm he hB hA
  obtain ⟨V, v1, v2⟩ := C31_covariance (two_ne_zero) h hg hS minres hsolve cov c1
  exact ⟨m1, m2, V, v1, fun i j => by rw [v2 i j i.2 j.2, c2 i j]⟩

/-- **C88, with the iterative solver.** With the linear solver which the code uses, the reported variances are positive and never larger than the propagated ones, and each element
is as near to the propagated covariance as the residuals of the linear solves are small. -/
theorem C88_minres_partial {ms : Evaluable ℝ δ} {labels clabels : List String} {m : Nat} (h : ms.SolverReady labels clabels m) {g : GN ℝ δ} (hg : g.Solves ms)
    (hn : ms.mu.Normalisable) (hsm : g.Smooth ms labels clabels) {est : Evaluable ℝ δ}
    (he : (g.estimate g.xyza g.hd.mu.values.length g.hd.mu.ks.length).denormalise = .ok est) {B : Nat → Nat → Nat → ℝ} {A : Nat → Nat → ℝ}
    (hB : ms.KDerivatives est.mu.values (g.xyza.drop g.hd.mu.values.length) B A) (hA : Identifies A ms.mu.ks.length g.hd.a.length)
    (hS : ∀ v, v.length = g.hd.a.length → matTVec g.S v = .ok (List.replicate g.hd.a.length 0) → v = List.replicate g.hd.a.length 0)
    {J : Matrix (Fin (g.hd.mu.values.length + g.hd.mu.ks.length)) (Fin (g.hd.mu.values.length + g.hd.a.length)) ℝ} (hJ : g.IsJacobian J)
    {lam : ℝ} (hl : 0 < lam) (hbd : ∀ v, lam * normSq v ≤ normSq (J.mulVec v))
    {o : MinresOpts ℝ} (ho : o.shift = 0 ∧ 0 < o.eps ∧ o.eps ≤ lam ∧ 0 ≤ o.cubeRootEps ∧ 0 ≤ o.rtol) {probes : (n : Nat) → List (Fin n → ℝ)}
    {V : List (List ℝ)} (hV : g.covariance (GN.minresObject o realSqrt probes) = .ok V) :
    ∃ b x : Nat → Fin (g.hd.mu.values.length + g.hd.a.length) → ℝ,
      (∀ j, j < g.hd.a.length → g.calcPx true (unitV (g.hd.mu.values.length + g.hd.a.length) (g.hd.mu.values.length + j)) = .ok (List.ofFn (b j)) ∧
        GN.minresObject o realSqrt probes g (List.ofFn (b j)) = .ok (List.ofFn (x j))) ∧
      (∀ i j : Fin g.hd.a.length, |(V.getD i []).getD j 0 - propagatedCov ms.mu g.hd.a.length B A i j| ≤
        (Real.sqrt (normSq (b i)) * Real.sqrt (normSq (b j - (J.transpose * J).mulVec (x j))) +
          Real.sqrt (normSq (b j)) * Real.sqrt (normSq (b i - (J.transpose * J).mulVec (x i)))) / (2 * lam)) ∧
      ∀ i : Fin g.hd.a.length, 0 < (V.getD i []).getD i 0 ∧ (V.getD i []).getD i 0 ≤ propagatedCov ms.mu g.hd.a.length B A i i := by
  obtain ⟨m1, m2, cov, c1, c2⟩ := C88_columns h hg hn hsm he hB hA
  obtain ⟨b, x, k1, k2, k3⟩ := C73_covariance h hg hS hJ hl hbd ho hV c1
  refine ⟨b, x, fun j hj => ⟨(k1 j hj).1, (k1 j hj).2.1⟩, fun i j => ?_, fun i => ?_⟩
  · rw [← c2 i j]
    exact k2 i j i.2 j.2
  · rw [← c2 i i]
    exact k3 i i.2
end Verif
