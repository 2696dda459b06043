import Verif.Spec.Objective
import Verif.Props.GNTotal
/-
The matrix of the un-normalisation is a square root of the declared covariance; generalised least squares with such a root.
-/
set_option autoImplicit false
namespace Verif
open Finset (sum_congr)
variable {α δ : Type}

/-! ### Quadratic forms with a known root -/

section
variable [Field α] {ι : Type} {P : Finset ι} {T : Nat} {M : ι → Nat → α} {V : ι → ι → α}

theorem gram_apply (hV : ∀ p ∈ P, ∀ p' ∈ P, V p p' = ∑ j ∈ Finset.range T, M p j * M p' j) (y : ι → α) {p : ι} (hp : p ∈ P) :
    ∑ p' ∈ P, V p p' * y p' = ∑ j ∈ Finset.range T, M p j * ∑ p' ∈ P, M p' j * y p' := by
  rw [sum_congr rfl fun p' hp' => by rw [hV p hp p' hp', Finset.sum_mul]]
  rw [Finset.sum_comm]
  refine sum_congr rfl fun j _ => ?_
  rw [Finset.mul_sum]
  exact sum_congr rfl fun p' _ => by ring

theorem pair_apply (y : ι → α) (d : Nat → α) :
    ∑ p ∈ P, y p * ∑ j ∈ Finset.range T, M p j * d j = ∑ j ∈ Finset.range T, (∑ p ∈ P, M p j * y p) * d j := by
  simp only [Finset.mul_sum, Finset.sum_mul]
  rw [Finset.sum_comm]
  exact sum_congr rfl fun j _ => sum_congr rfl fun p _ => by ring

/-- The objective is at most the squared length of any vector with the given image. -/
theorem gls_le [LinearOrder α] [IsStrictOrderedRing α] (hV : ∀ p ∈ P, ∀ p' ∈ P, V p p' = ∑ j ∈ Finset.range T, M p j * M p' j) {D y : ι → α} {d : Nat → α}
    (hD : ∀ p ∈ P, D p = ∑ j ∈ Finset.range T, M p j * d j) (hy : ∀ p ∈ P, ∑ p' ∈ P, V p p' * y p' = D p) :
    ∑ p ∈ P, y p * D p ≤ ∑ j ∈ Finset.range T, d j * d j := by
  have h1 : ∑ p ∈ P, y p * D p = ∑ j ∈ Finset.range T, (∑ p ∈ P, M p j * y p) * d j := by
    rw [← pair_apply]
    exact sum_congr rfl fun p hp => by rw [hD p hp]
  have h2 : ∑ p ∈ P, y p * D p = ∑ j ∈ Finset.range T, (∑ p ∈ P, M p j * y p) * ∑ p ∈ P, M p j * y p := by
    rw [← pair_apply]
    exact sum_congr rfl fun p hp => by rw [← hy p hp, gram_apply hV y hp]
  have h3 : 0 ≤ ∑ j ∈ Finset.range T, (d j - ∑ p ∈ P, M p j * y p) * (d j - ∑ p ∈ P, M p j * y p) := Finset.sum_nonneg fun j _ => mul_self_nonneg _
  have h4 : ∑ j ∈ Finset.range T, (d j - ∑ p ∈ P, M p j * y p) * (d j - ∑ p ∈ P, M p j * y p) =
      ∑ j ∈ Finset.range T, d j * d j - (∑ j ∈ Finset.range T, (∑ p ∈ P, M p j * y p) * d j) - (∑ j ∈ Finset.range T, (∑ p ∈ P, M p j * y p) * d j) +
        ∑ j ∈ Finset.range T, (∑ p ∈ P, M p j * y p) * ∑ p ∈ P, M p j * y p := by
    rw [← Finset.sum_sub_distrib, ← Finset.sum_sub_distrib, ← Finset.sum_add_distrib]
    exact sum_congr rfl fun j _ => by ring
  rw [h4, ← h1, ← h2] at h3
  linarith

/-- They are equal for vectors in the range of the transpose. -/
theorem gls_eq (hV : ∀ p ∈ P, ∀ p' ∈ P, V p p' = ∑ j ∈ Finset.range T, M p j * M p' j) {D y z : ι → α} {d : Nat → α}
    (hD : ∀ p ∈ P, D p = ∑ j ∈ Finset.range T, M p j * d j) (hy : ∀ p ∈ P, ∑ p' ∈ P, V p p' * y p' = D p)
    (hz : ∀ j, j < T → d j = ∑ p ∈ P, M p j * z p) : ∑ p ∈ P, y p * D p = ∑ j ∈ Finset.range T, d j * d j := by
  have h1 : ∑ p ∈ P, y p * D p = ∑ j ∈ Finset.range T, (∑ p ∈ P, M p j * y p) * ∑ p ∈ P, M p j * z p := by
    rw [← pair_apply]
    refine sum_congr rfl fun p hp => ?_
    rw [hD p hp]
    congr 1
    exact sum_congr rfl fun j hj => by rw [hz j (Finset.mem_range.1 hj)]
  have h2 : ∑ p ∈ P, z p * D p = ∑ j ∈ Finset.range T, (∑ p ∈ P, M p j * z p) * ∑ p ∈ P, M p j * y p := by
    rw [← pair_apply]
    exact sum_congr rfl fun p hp => by rw [← hy p hp, gram_apply hV y hp]
  have h3 : ∑ p ∈ P, z p * D p = ∑ j ∈ Finset.range T, (∑ p ∈ P, M p j * z p) * d j := by
    rw [← pair_apply]
    exact sum_congr rfl fun p hp => by rw [hD p hp]
  rw [h1, sum_congr rfl fun j hj => by rw [mul_comm], ← h2, h3]
  exact sum_congr rfl fun j hj => by rw [hz j (Finset.mem_range.1 hj)]
end

/-! ### The root of the declared covariance -/

section
variable [Field α] {ms : Evaluable α δ} {labels clabels : List String} {m n : Nat} {N : List Nat} {nm : MatchUp α δ}

theorem gatherM_interval {l ib : Nat} {d : Nat → Nat → α} {i c : Nat} :
    gatherM l (fun j => ib + j) d i c = if ib ≤ c ∧ c < ib + l then d i (c - ib) else 0 := by
  unfold gatherM
  by_cases h : ib ≤ c ∧ c < ib + l
  · rw [if_pos h, Finset.sum_eq_single (c - ib)]
    · rw [if_pos (show ib + (c - ib) = c by omega)]
    · intro j _ hj
      rw [if_neg (show ¬ ib + j = c by omega)]
    · intro hc
      exact absurd (Finset.mem_range.2 (by omega)) hc
  · rw [if_neg h]
    apply Finset.sum_eq_zero
    intro j hj
    have := Finset.mem_range.1 hj
    rw [if_neg (show ¬ ib + j = c by omega)]

/-- Starts and sizes of the normalised blocks. -/
theorem norm_starts (h : ms.SolverReady labels clabels m) (hf : RunFacts ms.mu nm N n) {b k : Nat} (hk : ms.mu.idx.N_var[b]? = some k) :
    ∃ nb, N[b]? = some nb ∧ nm.idx.idx[b]? = some (N.take b).sum ∧ nm.idx.N_var[b]? = some nb ∧ (N.take b).sum + nb ≤ N.sum := by
  obtain ⟨r1, r2, r3⟩ := hf.reads
  have hblt : b < ms.mu.unc.length := by
    rw [h.wf.unc, ← h.wf.idx.len]; exact (List.getElem?_eq_some_iff.1 hk).1
  have hbN : b < N.length := by rw [hf.len]; exact hblt
  have hnb : N[b]? = some N[b] := List.getElem?_eq_getElem hbN
  refine ⟨_, hnb, ?_, by rw [r2]; exact hnb, ?_⟩
  · have := r1 b (by rw [r2]; exact hbN)
    rw [r2] at this; exact this
  · have h1 := take_succ_sum N hnb
    have h2 := take_sum_le_take_sum N (show b + 1 ≤ N.length by omega)
    rw [List.take_length] at h2
    omega

/-- The un-normalisation of a block: independent standard errors of its own, with coefficients `A`, and a systematic effect. -/
theorem unconvM_form (h : ms.SolverReady labels clabels m) (hf : RunFacts ms.mu nm N n) {b k : Nat} {u : UncBlock α} (hk : ms.mu.idx.N_var[b]? = some k)
    (hu : ms.mu.unc[b]? = some u) :
    ∃ (A : Nat → Nat → α) (nb : Nat), N[b]? = some nb ∧
      (∀ r c, r < k → nm.unconvM (N.sum + n) n k b r c =
        gatherM nb (fun j => (N.take b).sum + j) A r c + if sysPos (N.sum + n) n u.uS_i = c then u.sysUnc ms.mu r else 0) ∧
      (∀ r r', r < k → r' < k → ∑ j ∈ Finset.range nb, A r j * A r' j = u.randomCov ms.mu r r') ∧
      ((∃ q, u.uS_i = some q ∧ 1 ≤ q ∧ q ≤ n) ∨ ∀ r, u.sysUnc ms.mu r = 0) := by
  obtain ⟨nb, hN, hib, hnb, hle⟩ := norm_starts h hf hk
  obtain ⟨ib', nb', u', h1, h2, h3, h4, h5⟩ := ready_block h hf hk
  rw [hib] at h1; cases h1
  rw [hnb] at h2; cases h2
  rw [hf.unc, hu] at h3; cases h3
  have hgetD : nm.idx.idx.getD b 0 = (N.take b).sum := by simp [List.getD, hib]
  have hunc : nm.unc[b]? = some u := by rw [hf.unc]; exact hu
  unfold MatchUp.unconvM UncBlock.randomCov UncBlock.sysUnc
  simp only [hunc, hgetD]
  rw [hf.ws, hf.us] at h5 ⊢
  have hdiag : ∀ (uR : List α) (r r' : Nat), r < k → ∑ j ∈ Finset.range k, diagM (ent uR) r j * diagM (ent uR) r' j = if r = r' then uR.getD r 0 * uR.getD r 0 else 0 := by
    intro uR r r' hr
    rw [diag_fwd _ _ hr]
    unfold diagM
    by_cases he : r = r'
    · subst he; simp [ent]
    · rw [if_neg he, if_neg (fun e => he e.symm), mul_zero]
  have hW : ∀ (w : CSR α) (uv : List α) (r r' : Nat), ∑ j ∈ Finset.range w.ncols, w.dense r j * ent uv j * (w.dense r' j * ent uv j) =
      ∑ j ∈ Finset.range w.ncols, w.weight r j * (uv.getD j 0 * uv.getD j 0) * w.weight r' j := by
    intro w uv r r'
    refine sum_congr rfl fun j _ => ?_
    show w.dense r j * ent uv j * (w.dense r' j * ent uv j) = w.dense r j * (ent uv j * ent uv j) * w.dense r' j
    ring
  cases hun : u.unc with
  | independent uR =>
    simp only [hun] at h5 ⊢
    obtain ⟨h6, rfl⟩ := h5
    exact ⟨diagM (ent uR), nb, hN, fun r c _ => by simp, fun r r' hr _ => hdiag uR r r' hr, .inr fun _ => trivial⟩
  | systematic uR uS =>
    simp only [hun] at h5 ⊢
    obtain ⟨h6, h7, rfl, q, hq, h8, h9⟩ := h5
    refine ⟨diagM (ent uR), nb, hN, fun r c _ => ?_, fun r r' hr _ => hdiag uR r r' hr, .inl ⟨q, hq, h8, h9⟩⟩
    rw [gather_one]
  | structured w_i u_i =>
    simp only [hun] at h5 ⊢
    obtain ⟨w, uv, hw, huv, _, _, _, rfl⟩ := h5
    simp only [hw, huv]
    exact ⟨fun i j => w.dense i j * ent uv j, w.ncols, hN, fun r c _ => by simp, fun r r' _ _ => hW w uv r r', .inr fun _ => trivial⟩
  | structuredSystematic w_i u_i uS =>
    simp only [hun] at h5 ⊢
    obtain ⟨⟨w, uv, hw, huv, _, _, _, rfl⟩, q, hq, h8, h9⟩ := h5
    simp only [hw, huv]
    refine ⟨fun i j => w.dense i j * ent uv j, w.ncols, hN, fun r c _ => ?_, fun r r' _ _ => hW w uv r r', .inl ⟨q, hq, h8, h9⟩⟩
    rw [gather_one]
    rfl

theorem starts_disjoint {b b' nb nb' c : Nat} (h : N[b]? = some nb) (h' : N[b']? = some nb') (hne : b ≠ b') (hc : (N.take b).sum ≤ c ∧ c < (N.take b).sum + nb) :
    ¬ ((N.take b').sum ≤ c ∧ c < (N.take b').sum + nb') := by
  have s1 := take_succ_sum N h
  have s2 := take_succ_sum N h'
  rcases Nat.lt_or_gt_of_ne hne with hlt | hlt
  · have := take_sum_le_take_sum N (show b + 1 ≤ b' by omega)
    omega
  · have := take_sum_le_take_sum N (show b' + 1 ≤ b by omega)
    omega

/-- The un-normalisation is a root of the declared covariance. -/
theorem unconvM_gram (h : ms.SolverReady labels clabels m) (hf : RunFacts ms.mu nm N n) {b k b' k' r r' : Nat} (hk : ms.mu.idx.N_var[b]? = some k)
    (hk' : ms.mu.idx.N_var[b']? = some k') (hr : r < k) (hr' : r' < k') :
    ms.mu.declaredCov b r b' r' = ∑ c ∈ Finset.range (N.sum + n), nm.unconvM (N.sum + n) n k b r c * nm.unconvM (N.sum + n) n k' b' r' c := by
  have hb : ∀ {b k : Nat}, ms.mu.idx.N_var[b]? = some k → ∃ u, ms.mu.unc[b]? = some u := fun {b k} hk =>
    ⟨_, List.getElem?_eq_getElem (by rw [h.wf.unc, ← h.wf.idx.len]; exact (List.getElem?_eq_some_iff.1 hk).1)⟩
  obtain ⟨u, hu⟩ := hb hk
  obtain ⟨u', hu'⟩ := hb hk'
  obtain ⟨A, nb, hN, hM, hA, hs⟩ := unconvM_form h hf hk hu
  obtain ⟨A', nb', hN', hM', hs', hAA⟩ : ∃ (A' : Nat → Nat → α) (nb' : Nat), N[b']? = some nb' ∧
      (∀ r c, r < k' → nm.unconvM (N.sum + n) n k' b' r c =
        gatherM nb' (fun j => (N.take b').sum + j) A' r c + if sysPos (N.sum + n) n u'.uS_i = c then u'.sysUnc ms.mu r else 0) ∧
      ((∃ q, u'.uS_i = some q ∧ 1 ≤ q ∧ q ≤ n) ∨ ∀ r, u'.sysUnc ms.mu r = 0) ∧ (b = b' → A = A') := by
    by_cases he : b = b'
    · subst he
      rw [hk] at hk'; cases hk'
      rw [hu] at hu'; cases hu'
      exact ⟨A, nb, hN, hM, hs, fun _ => rfl⟩
    · obtain ⟨A', nb', hN', hM', _, hs'⟩ := unconvM_form h hf hk' hu'
      exact ⟨A', nb', hN', hM', hs', fun e => absurd e he⟩
  obtain ⟨nb1, e1, _, _, hle⟩ := norm_starts h hf hk
  rw [hN] at e1; cases e1
  obtain ⟨nb1, e1, _, _, hle'⟩ := norm_starts h hf hk'
  rw [hN'] at e1; cases e1
  have hpos : ∀ q, 1 ≤ q → q ≤ n → sysPos (N.sum + n) n (some q) = N.sum + q - 1 := by
    intro q h1 h2
    simp only [sysPos, Option.getD_some]; omega
  rw [sum_congr rfl fun c _ => by rw [hM r c hr, add_mul]]
  rw [Finset.sum_add_distrib]
  rw [gatherM_apply (fun j hj => by omega)]
  have hX1 : ∀ j, j < nb → nm.unconvM (N.sum + n) n k' b' r' ((N.take b).sum + j) = if b = b' then A' r' j else 0 := by
    intro j hj
    rw [hM' r' _ hr', gatherM_interval]
    have hz : (if sysPos (N.sum + n) n u'.uS_i = (N.take b).sum + j then u'.sysUnc ms.mu r' else 0) = 0 := by
      rcases hs' with ⟨q, hq, h1, h2⟩ | hz
      · rw [hq, hpos q h1 h2, if_neg (by omega)]
      · rw [hz]; simp
    rw [hz, add_zero]
    by_cases he : b = b'
    · subst he
      rw [hN] at hN'; cases hN'
      rw [if_pos (by omega), if_pos rfl, Nat.add_sub_cancel_left]
    · rw [if_neg (starts_disjoint hN hN' he (by omega)), if_neg he]
  have hX2 : ∑ c ∈ Finset.range (N.sum + n), (if sysPos (N.sum + n) n u.uS_i = c then u.sysUnc ms.mu r else 0) * nm.unconvM (N.sum + n) n k' b' r' c =
      if u.uS_i = u'.uS_i then u.sysUnc ms.mu r * u'.sysUnc ms.mu r' else 0 := by
    rcases hs with ⟨q, hq, h1, h2⟩ | hz
    · rw [hq, hpos q h1 h2, Finset.sum_eq_single (N.sum + q - 1)]
      · rw [if_pos rfl, hM' r' _ hr', gatherM_interval, if_neg (by omega), zero_add]
        rcases hs' with ⟨q', hq', h1', h2'⟩ | hz'
        · rw [hq', hpos q' h1' h2']
          by_cases he : q = q'
          · subst he; simp
          · rw [if_neg (by omega), if_neg (by simpa using he), mul_zero]
        · rw [hz']; simp
      · intro c _ hc
        rw [if_neg (fun e => hc e.symm), zero_mul]
      · intro hc
        exact absurd (Finset.mem_range.2 (by omega)) hc
    · rw [hz]; simp
  rw [hX2, sum_congr rfl fun j hj => by rw [hX1 j (Finset.mem_range.1 hj)]]
  unfold MatchUp.declaredCov
  simp only [hu, hu']
  congr 1
  by_cases he : b = b'
  · subst he
    rw [hk] at hk'; cases hk'
    rw [hu] at hu'; cases hu'
    rw [if_pos rfl, ← hA r r' hr hr', ← hAA rfl]
    refine sum_congr rfl fun j _ => ?_
    rw [if_pos rfl]
  · rw [if_neg he]
    rw [sum_congr rfl fun j _ => by rw [if_neg he, mul_zero]]
    simp
end
end Verif
