import Verif.Lemmas.Objective
import Verif.Props.HarmoniseRun
/-
C85: the cost which is minimised is the generalised-least-squares objective of the error covariance declared by the files.
-/
set_option autoImplicit false
namespace Verif
open Finset (sum_congr)
variable {α δ : Type}

section
variable [Field α] {g : GN α δ} {ms : Evaluable α δ} {labels clabels : List String} {m n : Nat} {N : List Nat}

/-- All positions. -/
def MatchUp.positions (mu : MatchUp α δ) : Finset (Σ _ : Nat, Nat) := (Finset.range mu.numBlocks).sigma fun b => Finset.range (mu.blockLen b)

theorem mem_positions {mu : MatchUp α δ} {p : Σ _ : Nat, Nat} (h : p ∈ mu.positions) : mu.idx.N_var[p.1]? = some (mu.blockLen p.1) ∧ p.2 < mu.blockLen p.1 := by
  unfold MatchUp.positions at h
  rw [Finset.mem_sigma, Finset.mem_range, Finset.mem_range] at h
  refine ⟨?_, h.2⟩
  have h1 := h.1
  unfold MatchUp.numBlocks at h1
  simp [MatchUp.blockLen, List.getD, h1]

theorem positions_mem {mu : MatchUp α δ} {b r : Nat} (h1 : b < mu.numBlocks) (h2 : r < mu.blockLen b) : (⟨b, r⟩ : Σ _ : Nat, Nat) ∈ mu.positions := by
  unfold MatchUp.positions
  rw [Finset.mem_sigma, Finset.mem_range, Finset.mem_range]
  exact ⟨h1, h2⟩

theorem pairing_eq (mu : MatchUp α δ) (y z : Nat → Nat → α) : mu.pairing y z = ∑ p ∈ mu.positions, y p.1 p.2 * z p.1 p.2 := by
  unfold MatchUp.pairing MatchUp.positions
  rw [Finset.sum_sigma']

theorem covMul_eq (mu : MatchUp α δ) (y : Nat → Nat → α) (b r : Nat) : mu.covMul y b r = ∑ p ∈ mu.positions, mu.declaredCov b r p.1 p.2 * y p.1 p.2 := by
  unfold MatchUp.covMul MatchUp.positions
  rw [Finset.sum_sigma']

/-- The root of the declared covariance. -/
def GN.root (g : GN α δ) (ms : Evaluable α δ) (T n : Nat) (p : Σ _ : Nat, Nat) (j : Nat) : α := g.hd.mu.unconvM T n (ms.mu.blockLen p.1) p.1 p.2 j

theorem root_gram (h : g.Setup ms labels clabels m N n) : ∀ p ∈ ms.mu.positions, ∀ p' ∈ ms.mu.positions,
    ms.mu.declaredCov p.1 p.2 p'.1 p'.2 = ∑ j ∈ Finset.range (N.sum + n), g.root ms (N.sum + n) n p j * g.root ms (N.sum + n) n p' j := by
  intro p hp p' hp'
  obtain ⟨h1, h2⟩ := mem_positions hp
  obtain ⟨h3, h4⟩ := mem_positions hp'
  exact unconvM_gram h.ready h.facts h1 h3 h2 h4

theorem elem_of_slice {mu : MatchUp α δ} {vals : List α} {b k r : Nat} {f : Nat → α}
    (h : slice vals (mu.idx.N_var.take b).sum ((mu.idx.N_var.take b).sum + k) = vector k f) (hr : r < k) : mu.elem vals b r = f r := by
  have h1 : (slice vals (mu.idx.N_var.take b).sum ((mu.idx.N_var.take b).sum + k))[r]? = (vector k f)[r]? := by rw [h]
  unfold slice at h1
  rw [Nat.add_sub_cancel_left, List.getElem?_take_of_lt hr, List.getElem?_drop] at h1
  unfold MatchUp.elem
  simp only [List.getD, h1]
  have := ent_vector (f := f) hr
  simpa [ent, List.getD] using this

theorem elem_sub {mu : MatchUp α δ} {u v : List α} (h : u.length = v.length) (b r : Nat) :
    mu.elem (List.zipWith (· - ·) u v) b r = mu.elem u b r - mu.elem v b r := by
  unfold MatchUp.elem
  generalize (mu.idx.N_var.take b).sum + r = i
  simp only [List.getD, List.getElem?_zipWith]
  by_cases hi : i < u.length
  · rw [List.getElem?_eq_getElem hi, List.getElem?_eq_getElem (by omega)]
    rfl
  · rw [List.getElem?_eq_none (by omega), List.getElem?_eq_none (by omega)]
    simp

/-- Cost, values and K of an estimate. -/
theorem objective_parts (h : g.Setup ms labels clabels m N n) (hg : ms.normalise = .ok g.hd) (hn : ms.mu.Normalisable) {x f : List α}
    (hx : x.length = N.sum + n + labels.length) (hf : g.calcF x = .ok f) :
    ∃ est k, (g.estimate x (N.sum + n) ms.mu.idx.Nm.sum).denormalise = .ok est ∧ evaluateK est (.num 0) = .ok k ∧
      k.length = ms.mu.ks.length ∧ est.mu.values.length = ms.mu.values.length ∧
      dotp f f = ∑ j ∈ Finset.range (N.sum + n), (ent x j - ent g.hd.mu.values j) * (ent x j - ent g.hd.mu.values j) +
        ms.mu.kObjective (List.zipWith (· - ·) k ms.mu.ks) ∧
      (∀ p ∈ ms.mu.positions, ms.mu.elem ms.mu.values p.1 p.2 = ∑ j ∈ Finset.range (N.sum + n), g.root ms (N.sum + n) n p j * ent g.hd.mu.values j) ∧
      ∀ p ∈ ms.mu.positions, ms.mu.elem est.mu.values p.1 p.2 = ∑ j ∈ Finset.range (N.sum + n), g.root ms (N.sum + n) n p j * ent x j := by
  obtain ⟨s1, s2, s3⟩ := h.sizes
  have hwf := h.ready.wf
  obtain ⟨est, k, hest, hk, hkl, hfe⟩ := calcF_parts h hx hf
  obtain ⟨est', hest', e1, e2, _, _, _, _, _, hv⟩ := estimate_ok h hx
  rw [hest] at hest'; cases hest'
  obtain ⟨m2, b1, _, _, _, _, _, _, _, b5, b6, b7⟩ := reverse_ok h (xs := g.hd.mu.values) s1 (nm := g.hd.mu) rfl rfl rfl rfl rfl s3
    (by rw [← h.ready.orig, ← h.facts.orig]) h.facts.unck
  have hback : m2.values = ms.mu.values := by
    obtain ⟨nm, mu2, f1, f2, f3, _⟩ := C24_roundtrip_partial hn
    obtain ⟨nm', f4, f5⟩ := normalise_ok hg
    have hgm : g.hd.mu = nm' := by rw [f5]
    rw [f4] at f1; cases f1
    rw [hgm, f2] at b1; cases b1
    exact f3
  have hestl : est.mu.values.length = ms.mu.values.length := by
    obtain ⟨m3, c1, _, _, _, _, _, _, _, _, c6, _⟩ := reverse_ok h (xs := x.take (N.sum + n)) (by rw [List.length_take]; omega)
      (nm := g.hd.mu.bare (x.take (N.sum + n)) (List.replicate ms.mu.idx.Nm.sum 0)) rfl rfl rfl rfl rfl (by simp [MatchUp.bare])
      (by rw [← h.ready.orig, ← h.facts.orig]; rfl) (by rw [← h.facts.unck]; rfl)
    obtain ⟨q, q1, q2⟩ := bind_ok.1 hest
    rw [pure_ok] at q2
    have : transformReverse (g.hd.mu.bare (x.take (N.sum + n)) (List.replicate ms.mu.idx.Nm.sum 0)) = .ok q := q1
    rw [c1] at this; cases this
    rw [← q2]
    show m3.values.length = _
    rw [c6, hwf.values]
  have hfl : ms.mu.unck.flatten.length = ms.mu.idx.Nm.sum := by rw [List.length_flatten, hwf.unck]
  refine ⟨est, k, hest, hk, by rw [hkl, hwf.ks], hestl, ?_, fun p hp => ?_, fun p hp => ?_⟩
  · rw [hfe, dotp_append rfl]
    congr 1
    · have hd : (List.zipWith (· - ·) (x.take (N.sum + n)) (g.hd.mu.values.take (N.sum + n))).length = N.sum + n := by
        rw [List.length_zipWith, List.length_take, List.length_take]; omega
      unfold dotp
      rw [dot_vector hd hd]
      refine sum_congr rfl fun j hj => ?_
      have hj := Finset.mem_range.1 hj
      have : ent (List.zipWith (· - ·) (x.take (N.sum + n)) (g.hd.mu.values.take (N.sum + n))) j = ent x j - ent g.hd.mu.values j := by
        unfold ent
        simp only [List.getD, List.getElem?_zipWith, List.getElem?_take_of_lt hj, List.getElem?_eq_getElem (show j < x.length by omega),
          List.getElem?_eq_getElem (show j < g.hd.mu.values.length by omega), Option.getD_some]
      rw [this]
    · have hks := h.facts.ks
      rw [scaleKs_eq hwf.idx.series h.ready.pairs hwf.unck hwf.ks] at hks
      rw [← Except.ok.inj hks]
      have hmk : ms.mu.ks.length = ms.mu.unck.flatten.length := by rw [hwf.ks, hfl]
      have hkk : k.length = ms.mu.unck.flatten.length := by rw [hkl, hfl]
      have : List.zipWith (· - ·) (List.zipWith (· / ·) k ms.mu.unck.flatten) (List.zipWith (· / ·) ms.mu.ks ms.mu.unck.flatten) =
          List.zipWith (· / ·) (List.zipWith (· - ·) k ms.mu.ks) ms.mu.unck.flatten := by
        apply List.ext_getElem
        · simp only [List.length_zipWith]; omega
        · intro i i1 i2
          simp only [List.getElem_zipWith]
          ring
      rw [this]
      rfl
  · obtain ⟨h1, h2⟩ := mem_positions hp
    rw [← hback]
    exact elem_of_slice (b7 _ _ h1) h2
  · obtain ⟨h1, h2⟩ := mem_positions hp
    exact elem_of_slice (hv _ _ h1) h2

theorem resid_eq (h : g.Setup ms labels clabels m N n) {x v : List α} (hl : v.length = ms.mu.values.length)
    (hd : ∀ p ∈ ms.mu.positions, ms.mu.elem ms.mu.values p.1 p.2 = ∑ j ∈ Finset.range (N.sum + n), g.root ms (N.sum + n) n p j * ent g.hd.mu.values j)
    (hv : ∀ p ∈ ms.mu.positions, ms.mu.elem v p.1 p.2 = ∑ j ∈ Finset.range (N.sum + n), g.root ms (N.sum + n) n p j * ent x j) :
    ∀ p ∈ ms.mu.positions, ms.mu.elem (List.zipWith (· - ·) v ms.mu.values) p.1 p.2 =
      ∑ j ∈ Finset.range (N.sum + n), g.root ms (N.sum + n) n p j * (ent x j - ent g.hd.mu.values j) := by
  intro p hp
  rw [elem_sub hl, hd p hp, hv p hp, ← Finset.sum_sub_distrib]
  exact sum_congr rfl fun j _ => by ring
end

section
variable [Field α] [LinearOrder α] [IsStrictOrderedRing α]

/-- **C85, lower bound.** The cost of any estimate of the solver is at least the generalised-least-squares objective of its residuals: the sum of the squares of the
residuals weighted with the inverse of the covariance which the files declare, plus the sum of the squares of the K residuals over their uncertainties. -/
theorem C85_bound {ms : Evaluable α δ} {labels clabels : List String} {m : Nat} (h : ms.SolverReady labels clabels m) {g : GN α δ} (hg : g.Solves ms)
    (hn : ms.mu.Normalisable) {x f : List α} (hx : x.length = g.xyza.length) (hf : g.calcF x = .ok f) :
    ∃ est k, (g.estimate x g.hd.mu.values.length g.hd.mu.ks.length).denormalise = .ok est ∧ evaluateK est (.num 0) = .ok k ∧
      k.length = ms.mu.ks.length ∧ est.mu.values.length = ms.mu.values.length ∧
      ∀ q, ms.mu.WeightedSq (List.zipWith (· - ·) est.mu.values ms.mu.values) q → q + ms.mu.kObjective (List.zipWith (· - ·) k ms.mu.ks) ≤ dotp f f := by
  obtain ⟨N, n, hs⟩ := hg.setup h
  obtain ⟨s1, s2, s3⟩ := hs.sizes
  obtain ⟨est, k, h1, h2, h3, h4, h5, h6, h7⟩ := objective_parts hs hg.norm hn (hx.trans hs.xlen) hf
  refine ⟨est, k, by rw [s1, s3]; exact h1, h2, h3, h4, ?_⟩
  rintro q ⟨y, hy, rfl⟩
  rw [h5, pairing_eq]
  have := gls_le (P := ms.mu.positions) (V := fun p p' => ms.mu.declaredCov p.1 p.2 p'.1 p'.2) (M := g.root ms (N.sum + n) n) (y := fun p => y p.1 p.2)
    (D := fun p => ms.mu.elem (List.zipWith (· - ·) est.mu.values ms.mu.values) p.1 p.2) (d := fun j => ent x j - ent g.hd.mu.values j) (root_gram hs)
    (resid_eq hs h4 h6 h7) (fun p hp => by
      obtain ⟨q1, q2⟩ := mem_positions hp
      rw [← covMul_eq]
      exact hy _ _ (by unfold MatchUp.numBlocks; exact (List.getElem?_eq_some_iff.1 q1).1) q2)
  linarith

/-- **C85, the bound is reached.** For any values whose residuals have a weighted sum of squares, and any parameters, there is an estimate of the solver with these values and
parameters whose cost is the objective. -/
theorem C85_attained {ms : Evaluable α δ} {labels clabels : List String} {m : Nat} (h : ms.SolverReady labels clabels m) {g : GN α δ} (hg : g.Solves ms)
    (hn : ms.mu.Normalisable) {v a : List α} (hv : v.length = ms.mu.values.length) (ha : a.length = g.hd.a.length) {q : α}
    (hq : ms.mu.WeightedSq (List.zipWith (· - ·) v ms.mu.values) q) :
    ∃ x f est k, x.length = g.xyza.length ∧ x.drop g.hd.mu.values.length = a ∧ g.calcF x = .ok f ∧
      (g.estimate x g.hd.mu.values.length g.hd.mu.ks.length).denormalise = .ok est ∧ est.mu.values = v ∧ evaluateK est (.num 0) = .ok k ∧
      dotp f f = q + ms.mu.kObjective (List.zipWith (· - ·) k ms.mu.ks) := by
  obtain ⟨N, n, hs⟩ := hg.setup h
  obtain ⟨s1, s2, s3⟩ := hs.sizes
  obtain ⟨y, hy, rfl⟩ := hq
  obtain ⟨x, hxd⟩ : ∃ x, x = vector (N.sum + n) (fun j => ent g.hd.mu.values j + ∑ p ∈ ms.mu.positions, g.root ms (N.sum + n) n p j * y p.1 p.2) ++ a := ⟨_, rfl⟩
  have hxl : x.length = N.sum + n + labels.length := by rw [hxd, List.length_append, vector_length, ha, s2]
  have hxe : ∀ j, j < N.sum + n → ent x j = ent g.hd.mu.values j + ∑ p ∈ ms.mu.positions, g.root ms (N.sum + n) n p j * y p.1 p.2 := by
    intro j hj
    have e : ent x j = ent (vector (N.sum + n) (fun j => ent g.hd.mu.values j + ∑ p ∈ ms.mu.positions, g.root ms (N.sum + n) n p j * y p.1 p.2)) j := by
      rw [hxd]
      unfold ent
      simp only [List.getD]
      rw [List.getElem?_append_left (by rw [vector_length]; exact hj)]
    rw [e, ent_vector hj]
  obtain ⟨f, hf, _⟩ := calcF_total hs hxl
  obtain ⟨est, k, h1, h2, h3, h4, h5, h6, h7⟩ := objective_parts hs hg.norm hn hxl hf
  have hyp : ∀ p ∈ ms.mu.positions, ∑ p' ∈ ms.mu.positions, ms.mu.declaredCov p.1 p.2 p'.1 p'.2 * y p'.1 p'.2 =
      ms.mu.elem (List.zipWith (· - ·) v ms.mu.values) p.1 p.2 := fun p hp => by
    obtain ⟨q1, q2⟩ := mem_positions hp
    rw [← covMul_eq]
    exact hy _ _ (by unfold MatchUp.numBlocks; exact (List.getElem?_eq_some_iff.1 q1).1) q2
  have hD : ∀ p ∈ ms.mu.positions, ms.mu.elem (List.zipWith (· - ·) est.mu.values ms.mu.values) p.1 p.2 =
      ms.mu.elem (List.zipWith (· - ·) v ms.mu.values) p.1 p.2 := by
    intro p hp
    rw [resid_eq hs h4 h6 h7 p hp, ← hyp p hp,
      gram_apply (P := ms.mu.positions) (V := fun p p' => ms.mu.declaredCov p.1 p.2 p'.1 p'.2) (M := g.root ms (N.sum + n) n) (root_gram hs) (fun p => y p.1 p.2) hp]
    refine sum_congr rfl fun j hj => ?_
    rw [hxe j (Finset.mem_range.1 hj), add_sub_cancel_left]
  have hev : est.mu.values = v := by
    refine slices_eq (N := ms.mu.idx.N_var) (by rw [h4, h.wf.values]) (by rw [hv, h.wf.values]) ?_
    intro b c hc
    have hle : (ms.mu.idx.N_var.take b).sum + c ≤ ms.mu.values.length := by
      have q1 := take_succ_sum _ hc
      have q2 := take_sum_le_take_sum ms.mu.idx.N_var (show b + 1 ≤ ms.mu.idx.N_var.length from (List.getElem?_eq_some_iff.1 hc).1)
      rw [List.take_length, ← h.wf.values] at q2
      omega
    rw [slice_eq_vector (by omega), slice_eq_vector (by omega)]
    rw [Nat.add_sub_cancel_left]
    refine vector_congr fun r hr => ?_
    have hbl : ms.mu.blockLen b = c := by simp [MatchUp.blockLen, List.getD, hc]
    have := hD ⟨b, r⟩ (positions_mem (List.getElem?_eq_some_iff.1 hc).1 (by rw [hbl]; exact hr))
    simp only at this
    rw [elem_sub h4, elem_sub hv] at this
    exact sub_left_injective this
  refine ⟨x, f, est, k, hxl.trans hs.xlen.symm, ?_, hf, by rw [s1, s3]; exact h1, hev, h2, ?_⟩
  · rw [s1, hxd, List.drop_append_of_le_length (by rw [vector_length]), List.drop_of_length_le (by rw [vector_length]), List.nil_append]
  · rw [h5, pairing_eq]
    congr 1
    symm
    refine gls_eq (P := ms.mu.positions) (V := fun p p' => ms.mu.declaredCov p.1 p.2 p'.1 p'.2) (M := g.root ms (N.sum + n) n) (y := fun p => y p.1 p.2)
      (z := fun p => y p.1 p.2) (root_gram hs) (fun p hp => ?_) hyp (fun j hj => by rw [hxe j hj, add_sub_cancel_left])
    rw [← hD p hp, resid_eq hs h4 h6 h7 p hp]
end
end Verif
