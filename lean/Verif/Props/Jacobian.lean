import Verif.Lemmas.GNDeriv
import Verif.Props.GN
/-
Property C30: the Jacobian products are the derivatives of the residuals.
-/
set_option autoImplicit false
namespace Verif
open Finset (sum_congr)
variable {δ : Type}

theorem list_sum_eq_range {α β : Type} [AddCommMonoid α] (l : List β) (d : β) (f : β → α) : (l.map f).sum = ∑ i ∈ Finset.range l.length, f (l.getD i d) := by
  rw [← list_sum_range]
  congr 1
  apply List.ext_getElem
  · simp
  · intro i h1 h2
    have : i < l.length := by simpa using h1
    simp [List.getD, this]

/-- **C30.** On every solver-ready match-up, at every estimate where the models are smooth and have the derivatives they declare, and for every vector
`v`: the residual function is defined along the whole line `x + t P v` through the estimate `x`, and `J P v` is the derivative of the residuals along it. -/
theorem C30_jacobian {ms : Evaluable ℝ δ} {labels clabels : List String} {m : Nat} (h : ms.SolverReady labels clabels m) {g : GN ℝ δ} (hg : g.Solves ms)
    (hsm : g.Smooth ms labels clabels) (v : List ℝ) (hv : v.length = g.hd.mu.values.length + g.hd.a.length) :
    ∃ w u, g.calcPx false v = .ok w ∧ g.getJPx v = .ok u ∧ w.length = g.xyza.length ∧ u.length = g.hd.mu.values.length + g.hd.mu.ks.length ∧
      ∃ F : ℝ → List ℝ, (∀ t, g.calcF (along g.xyza w t) = .ok (F t) ∧ (F t).length = u.length) ∧
        ∀ r, r < u.length → HasDerivAt (fun t => (F t).getD r 0) (u.getD r 0) 0 := by
  obtain ⟨N, n, hs⟩ := hg.setup h
  obtain ⟨js, hj⟩ := hs.shaped
  obtain ⟨s1, s2, s3⟩ := hs.sizes
  rw [s1, s2] at hv
  obtain ⟨w, hw⟩ : ∃ w, w = vector (N.sum + n + labels.length) fun r => ∑ c ∈ Finset.range (N.sum + n + labels.length), g.preM (N.sum + n) r c * ent v c := ⟨_, rfl⟩
  have hwl : w.length = g.xyza.length := by rw [hw, hs.xlen]; simp
  have hpx := calcPx_fwd hj hv
  have hfw := prod_fwd hj hv
  simp only at hpx hfw
  rw [← hw] at hpx
  have hwe : ∀ c ∈ Finset.range (N.sum + n + labels.length), ∑ d ∈ Finset.range (N.sum + n + labels.length), g.preM (N.sum + n) c d * ent v d = ent w c := by
    intro c hc
    rw [hw, ent_vector (Finset.mem_range.1 hc)]
  have hN : ms.mu.idx.Im.length = ms.mu.idx.Nm.length := h.pairs
  have hIm : g.hd.mu.idx.Im = ms.mu.idx.Im := by rw [hs.facts.idx]
  have hjl : js.length = ms.mu.idx.Nm.length := by rw [hj.len, hIm, hN]
  -- one series
  have hser : ∀ i, ∃ (Y1 A1 Y2 A2 : ℝ → List ℝ), ∀ (k : Nat) (pair : Nat × Nat) (j : SeriesJ ℝ), ms.mu.idx.Im[i]? = some pair → ms.mu.idx.Nm[i]? = some k → js[i]? = some j →
      j.k = k ∧ j.lo = (ms.mu.idx.Nm.take i).sum ∧ ms.mu.unck.getD i [] = j.uK ∧
      (∀ t, g.SideVal ms labels clabels (N.sum + n) n i k pair.1 (along g.xyza w t) (Y1 t) (A1 t) ∧
        g.SideVal ms labels clabels (N.sum + n) n i k pair.2 (along g.xyza w t) (Y2 t) (A2 t)) ∧
      ∀ r, r < k → HasDerivAt (fun t => ent (A1 t) r) (ent j.JB1 r * ∑ c ∈ Finset.range (N.sum + n + labels.length), j.dR1 r c * ent w c) 0 ∧
        HasDerivAt (fun t => ent (A2 t) r) (ent j.JB2 r * ∑ c ∈ Finset.range (N.sum + n + labels.length), j.dR2 r c * ent w c) 0 := by
    intro i
    by_cases hi : i < ms.mu.idx.Nm.length
    · have hp := List.getElem?_eq_getElem (l := ms.mu.idx.Im) (i := i) (by omega)
      have hk := List.getElem?_eq_getElem (l := ms.mu.idx.Nm) (i := i) hi
      have hji := List.getElem?_eq_getElem (l := js) (i := i) (by omega)
      obtain ⟨c1, c2, _, c4, c5, o1, o2⟩ := hj.series i _ _ (by rw [hIm]; exact hp) hji
      rw [hs.cNm_eq, prefixSums_getElem?_of_le _ (by omega)] at c1 c2
      have e1 := Option.some.inj c1
      have e2 := Option.some.inj c2
      rw [take_succ_sum _ hk] at e2
      have hkk : (js[i]'(by omega)).k = ms.mu.idx.Nm[i] := by omega
      obtain ⟨m1, m2⟩ := hsm i _ _ hp hk
      rw [hkk] at o1 o2
      obtain ⟨Y1, A1, v1, d1⟩ := side_deriv hs hp hk (.inl rfl) m1 o1 hwl
      obtain ⟨Y2, A2, v2, d2⟩ := side_deriv hs hp hk (.inr rfl) m2 o2 hwl
      refine ⟨Y1, A1, Y2, A2, ?_⟩
      intro k pair j hp' hk' hj'
      rw [hp] at hp'; cases hp'
      rw [hk] at hk'; cases hk'
      rw [hji] at hj'; cases hj'
      rw [hs.facts.unck] at c4
      exact ⟨hkk, e1.symm, by simp [List.getD, c4], fun t => ⟨v1 t, v2 t⟩, fun r hr => ⟨d1 r hr, d2 r hr⟩⟩
    · refine ⟨fun _ => [], fun _ => [], fun _ => [], fun _ => [], ?_⟩
      intro k pair j _ hk' _
      exact absurd (List.getElem?_eq_some_iff.1 hk').1 hi
  choose Y1 A1 Y2 A2 hall using hser
  have hF : ∀ t, g.calcF (along g.xyza w t) = .ok _ := fun t => calcF_eq hs (by rw [along_length hwl.symm, hs.xlen])
    (y1 := fun i => Y1 i t) (y2 := fun i => Y2 i t) (a1 := fun i => A1 i t) (a2 := fun i => A2 i t) (by
      intro i k pair hp hk
      have hi := (List.getElem?_eq_some_iff.1 hk).1
      exact (hall i k pair _ hp hk (List.getElem?_eq_getElem (l := js) (i := i) (by omega))).2.2.2.1 t)
  refine ⟨w, _, hpx, hfw, hwl, by simp [s1, s3], fun t => _, fun t => ⟨hF t, by simp⟩, ?_⟩
  intro r hr
  simp only [vector_length] at hr
  have hu : (vector (N.sum + n + ms.mu.idx.Nm.sum) fun r => ∑ c ∈ Finset.range (N.sum + n + labels.length), jacM (N.sum + n) js r c *
      ∑ d ∈ Finset.range (N.sum + n + labels.length), g.preM (N.sum + n) c d * ent v d).getD r 0 =
      ∑ c ∈ Finset.range (N.sum + n + labels.length), jacM (N.sum + n) js r c * ent w c := by
    have := ent_vector (f := fun r => ∑ c ∈ Finset.range (N.sum + n + labels.length), jacM (N.sum + n) js r c *
      ∑ d ∈ Finset.range (N.sum + n + labels.length), g.preM (N.sum + n) c d * ent v d) hr
    refine this.trans (sum_congr rfl fun c hc => ?_)
    rw [hwe c hc]
  rw [hu]
  have hFr : ∀ t, (vector (N.sum + n + ms.mu.idx.Nm.sum) fun r => if r < N.sum + n then ent (along g.xyza w t) r - ent g.hd.mu.values r else
      (∑ i ∈ Finset.range ms.mu.idx.Nm.length, if (ms.mu.idx.Nm.take i).sum ≤ r - (N.sum + n) ∧ r - (N.sum + n) < (ms.mu.idx.Nm.take i).sum + ms.mu.idx.Nm.getD i 0
        then (ent (A2 i t) (r - (N.sum + n) - (ms.mu.idx.Nm.take i).sum) - ent (A1 i t) (r - (N.sum + n) - (ms.mu.idx.Nm.take i).sum)) /
          ent (ms.mu.unck.getD i []) (r - (N.sum + n) - (ms.mu.idx.Nm.take i).sum) else 0) - ent g.hd.mu.ks (r - (N.sum + n))).getD r 0 = _ := fun t => ent_vector hr
  simp only [hFr]
  have hjac : ∑ c ∈ Finset.range (N.sum + n + labels.length), jacM (N.sum + n) js r c * ent w c =
      (if r < N.sum + n then ent w r else 0) + ∑ i ∈ Finset.range ms.mu.idx.Nm.length, ∑ c ∈ Finset.range (N.sum + n + labels.length),
        (js.getD i ⟨0, 0, [], [], [], fun _ _ => 0, fun _ _ => 0⟩).mat (N.sum + n) r c * ent w c := by
    unfold jacM
    simp only [add_mul, Finset.sum_add_distrib]
    congr 1
    · by_cases hrv : r < N.sum + n
      · simp only [hrv, true_and, if_true, ite_mul, one_mul, zero_mul]
        rw [Finset.sum_ite_eq _ r fun c => ent w c, if_pos (Finset.mem_range.2 (by omega))]
      · simp [hrv]
    · rw [← hjl, Finset.sum_comm]
      refine sum_congr rfl fun c _ => ?_
      rw [list_sum_eq_range js ⟨0, 0, [], [], [], fun _ _ => 0, fun _ _ => 0⟩, Finset.sum_mul]
  rw [hjac]
  by_cases hrv : r < N.sum + n
  · simp only [if_pos hrv]
    rw [Finset.sum_eq_zero, add_zero]
    · have : (fun t : ℝ => ent (along g.xyza w t) r - ent g.hd.mu.values r) = fun t => ent g.xyza r + t * ent w r - ent g.hd.mu.values r := by
        funext t; rw [ent_along hwl.symm]
      rw [this]
      have := (((hasDerivAt_id (0 : ℝ)).mul_const (ent w r)).const_add (ent g.xyza r)).sub_const (ent g.hd.mu.values r)
      simpa using this
    · intro i _
      apply Finset.sum_eq_zero
      intro c _
      unfold SeriesJ.mat covM
      rw [if_neg (by omega), if_neg (by omega)]
      simp
  · simp only [if_neg hrv, zero_add]
    apply HasDerivAt.sub_const
    refine HasDerivAt.fun_sum fun i hi => ?_
    have hi' := Finset.mem_range.1 hi
    have hp := List.getElem?_eq_getElem (l := ms.mu.idx.Im) (i := i) (by omega)
    have hk := List.getElem?_eq_getElem (l := ms.mu.idx.Nm) (i := i) hi'
    have hji := List.getElem?_eq_getElem (l := js) (i := i) (by omega)
    obtain ⟨hkk, hlo, huk, _, hder⟩ := hall i _ _ _ hp hk hji
    have hgd : js.getD i ⟨0, 0, [], [], [], fun _ _ => 0, fun _ _ => 0⟩ = js[i]'(by omega) := by simp [List.getD, show i < js.length by omega]
    have hnd : ms.mu.idx.Nm.getD i 0 = ms.mu.idx.Nm[i] := by simp [List.getD, hi']
    rw [hgd, hnd, huk]
    by_cases hin : (ms.mu.idx.Nm.take i).sum ≤ r - (N.sum + n) ∧ r - (N.sum + n) < (ms.mu.idx.Nm.take i).sum + ms.mu.idx.Nm[i]
    · simp only [if_pos hin]
      obtain ⟨d1, d2⟩ := hder (r - (N.sum + n) - (ms.mu.idx.Nm.take i).sum) (by omega)
      refine ((d2.fun_sub d1).div_const _).congr_deriv ?_
      unfold SeriesJ.mat covM
      rw [hlo, hkk]
      have hq : r - (N.sum + n + (ms.mu.idx.Nm.take i).sum) = r - (N.sum + n) - (ms.mu.idx.Nm.take i).sum := by omega
      rw [hq]
      simp only [if_pos (show N.sum + n + (ms.mu.idx.Nm.take i).sum ≤ r ∧ r < N.sum + n + (ms.mu.idx.Nm.take i).sum + ms.mu.idx.Nm[i] by omega)]
      rw [sub_div, Finset.mul_sum, Finset.mul_sum, Finset.sum_div, Finset.sum_div, ← Finset.sum_sub_distrib]
      refine sum_congr rfl fun c _ => ?_
      ring
    · simp only [if_neg hin]
      have : ∑ c ∈ Finset.range (N.sum + n + labels.length), (js[i]'(by omega)).mat (N.sum + n) r c * ent w c = 0 := by
        apply Finset.sum_eq_zero
        intro c _
        unfold SeriesJ.mat covM
        rw [hlo, hkk, if_neg (by omega), if_neg (by omega)]
        simp
      rw [this]
      exact hasDerivAt_const _ _

end Verif
