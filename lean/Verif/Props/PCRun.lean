import Verif.Props.PCJac
import Verif.Props.PC
/-
C59: the run of the preconditioner.
-/
set_option autoImplicit false
namespace Verif
open Finset (sum_congr)
variable {α δ : Type}

/-- The limit on the number of refinements is 20 plus the square root of the number of unknowns, rounded up. -/
theorem C59_limit (n : Nat) : ∃ k, pcMaxIter n = 20 + k ∧ n ≤ k * k ∧ ∀ j, j < k → j * j < n := by
  unfold pcMaxIter
  have h1 := Nat.sqrt_le n
  have h2 := Nat.lt_succ_sqrt n
  split
  · rename_i he
    refine ⟨_, rfl, by omega, fun j hj => ?_⟩
    have := Nat.mul_lt_mul'' hj hj
    omega
  · rename_i he
    refine ⟨_, rfl, by simpa using Nat.le_of_lt h2, fun j hj => ?_⟩
    have : j * j ≤ n.sqrt * n.sqrt := Nat.mul_le_mul (by omega) (by omega)
    omega

section
variable [Field α] [LinearOrder α] [IsStrictOrderedRing α]

theorem PC.at_at {p : PC α δ} {a b : List α} (hx : p.hd.mu.values.length ≤ p.xyza.length) : (p.at b).at a = p.at a := by
  unfold PC.at
  simp only [PC.mk.injEq, true_and]
  rw [List.take_append_of_le_length (by simp; omega)]
  simp

theorem PC.at_calcFJ {p : PC α δ} {a b : List α} (hv : pyLast p.hd.mu.idx.idx = .ok p.hd.mu.values.length) (hx : p.xyza.length = p.hd.mu.values.length + p.hd.a.length)
    (ha : a.length = p.hd.a.length) (hb : b.length = p.hd.a.length) : (p.at b).calcFJ a = p.calcFJ a := by
  unfold PC.calcFJ
  have e : (p.at b).hd = p.hd := rfl
  have hl : (p.at b).xyza.length = (p.at b).hd.mu.values.length + (p.at b).hd.a.length := by
    show (List.take _ _ ++ b).length = p.hd.mu.values.length + p.hd.a.length
    simp [hx, hb]
  rw [PC.setParams_eq (p := p.at b) hv hl ha, PC.setParams_eq hv hx ha, PC.at_at (by omega), e]

theorem dotp_npDot {a b : List α} (h : a.length = b.length) : npDot a b = .ok (dotp a b) := by
  rw [npDot_vector rfl h.symm]
  unfold dotp
  rw [dot_vector (n := a.length) rfl h.symm]

/-- The loop. -/
theorem refineLoop_history {o : PCRoutines α} (ho : o.Sound) {tol : α} {p : PC α δ} (hv : pyLast p.hd.mu.idx.idx = .ok p.hd.mu.values.length)
    (hx : p.xyza.length = p.hd.mu.values.length + p.hd.a.length) : ∀ (mx : Nat) (st st' : PCLoop α δ), st.conv = false → st.a.length = p.hd.a.length →
    (∃ b, b.length = p.hd.a.length ∧ st.pc = p.at b) → PC.refineLoop o tol mx st = .ok st' →
    ∃ (n : Nat) (s : Nat → PC α δ × List α) (L : Nat → List (List α)), s 0 = (st.pc, st.a) ∧
      (∀ i, i < n → ∃ last, (s i).1.calcLK o.chol = .ok (L i) ∧ last.length = p.hd.a.length ∧
        o.lsq ((s i).1.getF (o.solve (L i))) (s i).2 ((s i).1.getJa (o.solve (L i))) tol = .ok ((s (i + 1)).2, last) ∧ (s (i + 1)).1 = p.at last) ∧
      n ≤ mx ∧ (∀ i, i + 1 < n → ¬ Closer tol (s i).2 (s (i + 1)).2) ∧ (n = mx ∨ (1 ≤ n ∧ Closer tol (s (n - 1)).2 (s n).2)) ∧
      s n = (st'.pc, st'.a) ∧ (1 ≤ n → st'.LK = some (L (n - 1))) ∧ ∀ i, i ≤ n → (s i).2.length = p.hd.a.length ∧ ∃ b, b.length = p.hd.a.length ∧ (s i).1 = p.at b := by
  intro mx
  induction mx with
  | zero =>
    intro st st' hc ha hp h
    cases pure_ok.1 h
    exact ⟨0, fun _ => (st.pc, st.a), fun _ => [], rfl, fun i hi => by omega, by omega, fun i hi => by omega, .inl rfl, rfl, fun h => by omega, fun i _ => ⟨ha, hp⟩⟩
  | succ mx ih =>
    intro st st' hc ha hp h
    unfold PC.refineLoop at h
    rw [hc] at h
    simp only [Bool.false_eq_true, if_false] at h
    obtain ⟨st1, h1, h⟩ := bind_ok.1 h
    unfold PC.refine at h1
    obtain ⟨LK, e1, h1⟩ := bind_ok.1 h1
    obtain ⟨r, e2, h1⟩ := bind_ok.1 h1
    obtain ⟨pc, e3, h1⟩ := bind_ok.1 h1
    obtain ⟨d, e4, h1⟩ := bind_ok.1 h1
    obtain ⟨dd, e5, h1⟩ := bind_ok.1 h1
    obtain ⟨nrm, e6, h1⟩ := bind_ok.1 h1
    have h1 := pure_ok.1 h1
    obtain ⟨l1, l2⟩ := ho.lsq _ _ _ _ _ e2
    obtain ⟨b, hb, hpb⟩ := hp
    have hl : (p.at b).xyza.length = (p.at b).hd.mu.values.length + (p.at b).hd.a.length := by
      show (List.take _ _ ++ b).length = p.hd.mu.values.length + p.hd.a.length
      simp [hx, hb]
    have hpc : pc = p.at r.2 := by
      rw [hpb, PC.setParams_eq (p := p.at b) hv hl (by rw [l2, ha]; rfl), PC.at_at (by omega)] at e3
      exact (Except.ok.inj e3).symm
    have hclose : Closer tol st.a r.1 ↔ nrm < tol := by
      rw [npZip_eq l1] at e4
      obtain rfl := Except.ok.inj e4
      rw [dotp_npDot rfl] at e5
      obtain rfl := Except.ok.inj e5
      obtain ⟨n1, n2⟩ := ho.sqrt _ _ e6
      constructor
      · rintro ⟨q, q1, q2, q3⟩
        have : q = nrm := by
          have := (mul_self_eq_mul_self_iff.1 (q2.trans n2.symm))
          rcases this with h | h
          · exact h
          · have : nrm = 0 := by linarith
            rw [h, this, neg_zero]
        rw [← this]; exact q3
      · intro hlt
        exact ⟨nrm, n1, n2, hlt⟩
    cases hcv : decide (nrm < tol) with
    | true =>
      have hst : st' = st1 := by
        rw [← h1] at h ⊢
        cases mx with
        | zero => exact (pure_ok.1 h).symm
        | succ k =>
          unfold PC.refineLoop at h
          simp only [hcv, if_true] at h ⊢
          exact (pure_ok.1 h).symm
      have hlt : nrm < tol := of_decide_eq_true hcv
      refine ⟨1, fun i => if i = 0 then (st.pc, st.a) else (st1.pc, st1.a), fun _ => LK, rfl, ?_, by omega, fun i hi => by omega, .inr ⟨Nat.le_refl _, ?_⟩, by rw [hst]; rfl, ?_, ?_⟩
      · intro i hi
        obtain rfl : i = 0 := by omega
        refine ⟨r.2, e1, by rw [l2, ha], ?_, ?_⟩
        · show o.lsq _ _ _ _ = .ok (st1.a, r.2)
          rw [← h1]; exact e2
        · show st1.pc = _
          rw [← h1]; exact hpc
      · show Closer tol st.a st1.a
        rw [← h1]; exact hclose.2 hlt
      · intro _; rw [hst, ← h1]
      · intro i hi
        by_cases h0 : i = 0
        · subst h0; exact ⟨ha, b, hb, hpb⟩
        · simp only [if_neg h0]
          rw [← h1]
          exact ⟨by show r.1.length = _; rw [l1, ha], r.2, by rw [l2, ha], hpc⟩
    | false =>
      have hnl : ¬ nrm < tol := of_decide_eq_false hcv
      obtain ⟨n, s, L, g1, g2, g3, g4, g5, g6, g7, g8⟩ := ih st1 st' (by rw [← h1]; exact hcv) (by rw [← h1]; show r.1.length = _; rw [l1, ha])
        ⟨r.2, by rw [l2, ha], by rw [← h1]; exact hpc⟩ h
      have hs0 : s 0 = (pc, r.1) := by rw [g1, ← h1]
      refine ⟨n + 1, fun i => match i with | 0 => (st.pc, st.a) | i + 1 => s i, fun i => match i with | 0 => LK | i + 1 => L i, rfl, ?_, by omega, ?_, ?_, g6, ?_, ?_⟩
      · intro i hi
        cases i with
        | zero =>
          refine ⟨r.2, e1, by rw [l2, ha], ?_, ?_⟩
          · show o.lsq _ _ _ _ = .ok ((s 0).2, r.2)
            rw [hs0]; exact e2
          · show (s 0).1 = _
            rw [hs0]; exact hpc
        | succ i => exact g2 i (by omega)
      · intro i hi
        cases i with
        | zero =>
          show ¬ Closer tol st.a (s 0).2
          rw [hs0]
          exact fun hc => hnl (hclose.1 hc)
        | succ i => exact g4 i (by omega)
      · rcases g5 with g5 | ⟨g5, g5'⟩
        · exact .inl (by omega)
        · refine .inr ⟨by omega, ?_⟩
          obtain ⟨n', rfl⟩ : ∃ n', n = n' + 1 := ⟨n - 1, by omega⟩
          exact g5'
      · intro _
        cases n with
        | zero =>
          have : st' = st1 := by
            have := g6
            rw [g1] at this
            rcases g5 with g5 | g5
            · subst g5
              exact (pure_ok.1 h).symm
            · omega
          rw [this, ← h1]; rfl
        | succ n => exact g7 (by omega)
      · intro i hi
        cases i with
        | zero => exact ⟨ha, b, hb, hpb⟩
        | succ i => exact g8 i (by omega)

/-- The loop of `runPC` on an object with its data. -/
theorem run_history {o : PCRoutines α} (ho : o.Sound) {tol : α} {p : PC α δ} (hv : pyLast p.hd.mu.idx.idx = .ok p.hd.mu.values.length)
    (hx : p.xyza.length = p.hd.mu.values.length + p.hd.a.length) {a : List α} {V : List (List α)} {q : PC α δ} (h : p.run o tol = .ok (a, V, q)) :
    ∃ n s L J, PC.History o tol p (pcMaxIter (p.hd.mu.values.length + p.hd.a.length)) n s L ∧ (s n).2 = a ∧ a.length = p.hd.a.length ∧
      (∀ i, i ≤ n → ∃ b, b.length = p.hd.a.length ∧ (s i).1 = p.at b) ∧ q = p.at a ∧
      p.getJa (o.solve (L (n - 1))) a = .ok J ∧ PC.spread o p.hd.a.length J = .ok V := by
  unfold PC.run at h
  obtain ⟨st, h1, h⟩ := bind_ok.1 h
  obtain ⟨LK, h2, h⟩ := bind_ok.1 h
  obtain ⟨J, h3, h⟩ := bind_ok.1 h
  obtain ⟨V', h4, h⟩ := bind_ok.1 h
  obtain ⟨pc, h5, h⟩ := bind_ok.1 h
  have h := pure_ok.1 h
  simp only [Prod.mk.injEq] at h
  obtain ⟨rfl, rfl, rfl⟩ := h
  have hp0 : p = p.at (p.xyza.drop p.hd.mu.values.length) := by unfold PC.at; rw [List.take_append_drop]
  obtain ⟨n, s, L, g1, g2, g3, g4, g5, g6, g7, g8⟩ := refineLoop_history ho hv hx _ _ _ rfl rfl ⟨_, by simp [hx], hp0⟩ h1
  have hn : 1 ≤ n := by
    rcases g5 with g5 | g5
    · rw [g5]; unfold pcMaxIter; omega
    · exact g5.1
  obtain ⟨ga, b, hb, hpb⟩ := g8 n (Nat.le_refl _)
  rw [g6] at ga hpb
  simp only at ga hpb
  have hl : (p.at b).xyza.length = (p.at b).hd.mu.values.length + (p.at b).hd.a.length := by
    show (List.take _ _ ++ b).length = p.hd.mu.values.length + p.hd.a.length
    simp [hx, hb]
  refine ⟨n, s, L, J, ⟨g1, ?_, hn, g3, g4, g5.imp id (·.2)⟩, by rw [g6], ga, fun i hi => (g8 i hi).2, ?_, ?_, h4⟩
  · intro i hi
    obtain ⟨last, q1, _, q3, q4⟩ := g2 i hi
    exact ⟨last, q1, q3, q4⟩
  · rw [hpb, PC.setParams_eq (p := p.at b) hv hl ga, PC.at_at (by omega)] at h5
    exact (Except.ok.inj h5).symm
  · rw [g7 hn] at h2
    obtain rfl := Except.ok.inj h2
    unfold PC.getJa at h3 ⊢
    rw [hpb, PC.at_calcFJ hv hx ga hb] at h3
    exact h3

variable {ms : Evaluable α δ} {labels clabels : List String} {m : Nat} {p : PC α δ}

theorem normalised_last (h : ms.SolverReady labels clabels m) (hnorm : ms.normalise = .ok p.hd) (hx : p.xyza.length = p.hd.mu.values.length + p.hd.a.length) :
    pyLast p.hd.mu.idx.idx = .ok p.hd.mu.values.length := by
  have hsol : p.asGN.Solves ms := ⟨hnorm, hx, (identS_shape (α := α) p.hd.a.length).1, (identS_shape (α := α) p.hd.a.length).2⟩
  obtain ⟨N, n, hs⟩ := hsol.setup h
  obtain ⟨s1, _, _⟩ := hs.sizes
  have s1 : p.hd.mu.values.length = N.sum + n := s1
  rw [s1]; exact hs.var_eq

theorem isUnit_of_kernel {n : Nat} {A : Matrix (Fin n) (Fin n) α} (h : ∀ v, A.mulVec v = 0 → v = 0) : IsUnit A := by
  rw [← Matrix.mulVec_injective_iff_isUnit]
  intro x y hxy
  have := h (x - y) (by rw [Matrix.mulVec_sub]; exact sub_eq_zero.2 hxy)
  exact sub_eq_zero.1 this

theorem rowsMat_isUnit {n : Nat} {M : List (List α)} (h : PosDefinite n M) : IsUnit (rowsMat n n M) := by
  apply isUnit_of_kernel
  intro v hv
  by_contra hne
  have hx : ∃ i, i < n ∧ (fun i => if hi : i < n then v ⟨i, hi⟩ else 0) i ≠ 0 := by
    by_contra hall
    apply hne
    funext i
    by_contra hi
    exact hall ⟨i, i.2, by simpa using hi⟩
  have := h.pos _ hx
  unfold quadForm at this
  have e : ∑ i ∈ Finset.range n, ∑ j ∈ Finset.range n, (if hi : i < n then v ⟨i, hi⟩ else 0) * entry M i j * (if hj : j < n then v ⟨j, hj⟩ else 0) = 0 := by
    rw [Finset.sum_range]
    apply Finset.sum_eq_zero
    intro i _
    rw [Finset.sum_range]
    have := congrFun hv i
    simp only [Matrix.mulVec, dotProduct, rowsMat, Pi.zero_apply] at this
    simp only [Fin.is_lt, dif_pos, mul_assoc, ← Finset.mul_sum]
    rw [this, mul_zero]
  rw [e] at this
  exact lt_irrefl _ this

/-- Generalised least squares: weighting by a factor of the covariance, QR and least squares give the inverse of the normal matrix. -/
theorem gls_inverse {M P : Nat} {L W : Matrix (Fin M) (Fin M) α} {A J : Matrix (Fin M) (Fin P) α} {R U : Matrix (Fin P) (Fin P) α} (hW : L * L.transpose = W)
    (hu : IsUnit W) (hJ : L * J = A) (hR : R.transpose * R = J.transpose * J) (hU : R.transpose * R * U = R.transpose) (hA : ∀ v, A.mulVec v = 0 → v = 0) :
    U * U.transpose * (A.transpose * W⁻¹ * A) = 1 := by
  have hL : IsUnit L := by
    rw [Matrix.isUnit_iff_isUnit_det] at hu ⊢
    rw [← hW, Matrix.det_mul] at hu
    exact isUnit_of_mul_isUnit_left hu
  have hLd := (Matrix.isUnit_iff_isUnit_det L).1 hL
  have hJe : J = L⁻¹ * A := by rw [← hJ, ← Matrix.mul_assoc, Matrix.nonsing_inv_mul L hLd, Matrix.one_mul]
  have hN : A.transpose * W⁻¹ * A = J.transpose * J := by
    rw [← hW, Matrix.mul_inv_rev, hJe, Matrix.transpose_mul, Matrix.transpose_nonsing_inv]
    simp only [Matrix.mul_assoc]
  have hJi : ∀ v, J.mulVec v = 0 → v = 0 := by
    intro v hv
    apply hA
    rw [← hJ, ← Matrix.mulVec_mulVec, hv, Matrix.mulVec_zero]
  have hRu : IsUnit R := by
    apply isUnit_of_kernel
    intro v hv
    apply hJi
    have : (J.transpose * J).mulVec v = 0 := by rw [← hR, ← Matrix.mulVec_mulVec, hv, Matrix.mulVec_zero]
    have h2 : J.mulVec v ⬝ᵥ J.mulVec v = 0 := by
      have h3 : v ⬝ᵥ (J.transpose * J).mulVec v = 0 := by rw [this, dotProduct_zero]
      rw [← Matrix.mulVec_mulVec, Matrix.dotProduct_mulVec, Matrix.vecMul_transpose] at h3
      exact h3
    exact dotProduct_self_eq_zero.1 h2
  have hRd := (Matrix.isUnit_iff_isUnit_det R).1 hRu
  have hRtd : IsUnit R.transpose.det := by rw [Matrix.det_transpose]; exact hRd
  have hRU : R * U = 1 := by
    have := congrArg (fun X => (R.transpose)⁻¹ * X) hU
    simp only [Matrix.mul_assoc] at this
    rwa [← Matrix.mul_assoc, Matrix.nonsing_inv_mul _ hRtd, Matrix.one_mul] at this
  have hUR : U * R = 1 := mul_eq_one_comm.1 hRU
  rw [hN, ← hR]
  calc U * U.transpose * (R.transpose * R) = U * ((R * U).transpose * R) := by rw [Matrix.transpose_mul]; simp only [Matrix.mul_assoc]
    _ = 1 := by rw [hRU, Matrix.transpose_one, Matrix.one_mul, hUR]

/-- Weighted residuals: the gradient of the weighted sum of squares in terms of the unweighted quantities. -/
theorem gls_gradient {M P : Nat} {L W : Matrix (Fin M) (Fin M) α} {A J : Matrix (Fin M) (Fin P) α} {d f : Fin M → α} (hW : L * L.transpose = W)
    (hu : IsUnit W) (hJ : L * J = A) (hf : L.mulVec f = d) : (A.transpose * W⁻¹).mulVec d = J.transpose.mulVec f := by
  have hL : IsUnit L := by
    rw [Matrix.isUnit_iff_isUnit_det] at hu ⊢
    rw [← hW, Matrix.det_mul] at hu
    exact isUnit_of_mul_isUnit_left hu
  have hLd := (Matrix.isUnit_iff_isUnit_det L).1 hL
  have hJe : J = L⁻¹ * A := by rw [← hJ, ← Matrix.mul_assoc, Matrix.nonsing_inv_mul L hLd, Matrix.one_mul]
  rw [← hf, Matrix.mulVec_mulVec, ← hW, Matrix.mul_inv_rev, hJe, Matrix.transpose_mul, Matrix.transpose_nonsing_inv]
  have : A.transpose * (L.transpose⁻¹ * L⁻¹) * L = A.transpose * L.transpose⁻¹ := by
    rw [Matrix.mul_assoc, Matrix.mul_assoc, Matrix.nonsing_inv_mul L hLd, Matrix.mul_one]
  rw [this]

theorem getJa_mat {p : PC α δ} {o : PCRoutines α} (ho : o.Sound) {L Ja J : List (List α)} {k a : List α} {M P : Nat} (hL : IsSquare L M) (hc : p.calcFJ a = .ok (k, Ja))
    (hl : Ja.length = P) (hM : ∀ col ∈ Ja, col.length = M) (h : p.getJa (o.solve L) a = .ok J) :
    J.length = P ∧ (∀ c ∈ J, c.length = M) ∧ rowsMat M M L * colsMat M P J = colsMat M P Ja := by
  unfold PC.getJa at h
  rw [hc] at h
  simp only [bind, Except.bind] at h
  obtain ⟨hJl, hJ⟩ := mapM_ok_get h
  have hcol : ∀ i (hi : i < J.length), J[i].length = M ∧ (rowsMat M M L).mulVec (listVec M J[i]) = listVec M (Ja[i]'(by omega)) := by
    intro i hi
    obtain ⟨c, hs, hs0⟩ := hJ i (Ja[i]'(by omega)) (List.getElem?_eq_getElem (by omega))
    rw [List.getElem?_eq_getElem hi] at hs0
    cases hs0
    exact ho.solve _ _ _ _ hL (hM _ (List.getElem_mem _)) hs
  refine ⟨by omega, ?_, ?_⟩
  · intro c hcm
    obtain ⟨i, hi, rfl⟩ := List.mem_iff_getElem.1 hcm
    exact (hcol i hi).1
  · funext i j
    have := congrFun (hcol j (by omega)).2 i
    simp only [Matrix.mulVec, dotProduct, listVec] at this
    simp only [Matrix.mul_apply, colsMat]
    have e1 : entry Ja j i = (Ja[(j : Nat)]'(by omega)).getD i 0 := by simp [entry, List.getD, show (j : Nat) < Ja.length by omega]
    rw [e1, ← this]
    refine sum_congr rfl fun l _ => ?_
    congr 1
    simp [entry, List.getD, show (j : Nat) < J.length by omega]

theorem npGram_rows {U : List (List α)} {n : Nat} (h : ∀ r ∈ U, r.length = n) : npGram U = .ok (U.map fun r => U.map fun q => dotp r q) := by
  unfold npGram
  refine mapM_ok_of fun r hr => mapM_ok_of fun q hq => ?_
  exact dotp_npDot (by rw [h r hr, h q hq])

theorem spread_mat {o : PCRoutines α} (ho : o.Sound) {J V : List (List α)} {M P : Nat} (hl : J.length = P) (hM : ∀ c ∈ J, c.length = M) (h : PC.spread o P J = .ok V) :
    IsSquare V P ∧ ∃ R U : Matrix (Fin P) (Fin P) α, R.transpose * R = (colsMat M P J).transpose * colsMat M P J ∧ R.transpose * R * U = R.transpose ∧
      rowsMat P P V = U * U.transpose := by
  unfold PC.spread at h
  obtain ⟨R, h1, h⟩ := bind_ok.1 h
  obtain ⟨U, h2, h⟩ := bind_ok.1 h
  obtain ⟨q1, q2, q3, q4⟩ := ho.qrR _ _ _ _ hl hM h1
  have heye : IsSquare (npEye P : List (List α)) P := ⟨by simp [npEye], by simp [npEye]⟩
  obtain ⟨l1, l2, l3⟩ := ho.lstsq _ _ _ P (by
    intro r hr
    obtain ⟨r', hr', rfl⟩ := List.mem_map.1 hr
    rw [List.length_take, q2 r' (List.mem_of_mem_take hr')]; omega) heye h2
  have hPM : P ≤ M := by
    rw [List.length_map, List.length_take, q1] at l1; omega
  obtain ⟨g1, g2, _⟩ := npGram_ok h
  have hent : ∀ i j : Nat, i < P → j < P → entry ((R.take P).map fun r => r.take P) i j = entry R i j := by
    intro i j hi hj
    have : i < R.length := by omega
    simp [entry, List.getD, hi, hj, this]
  refine ⟨⟨by rw [g1, l2.1], fun r hr => by rw [g2 r hr, l2.1]⟩, rowsMat P P ((R.take P).map fun r => r.take P), rowsMat P P U, ?_, ?_, ?_⟩
  · rw [← q4]
    funext i j
    simp only [Matrix.mul_apply, Matrix.transpose_apply, rowsMat]
    rw [← Finset.sum_range (fun l => entry R l i * entry R l j), ← Finset.sum_range (fun l => entry ((R.take P).map fun r => r.take P) l i * entry ((R.take P).map fun r => r.take P) l j)]
    obtain ⟨e, rfl⟩ := Nat.exists_eq_add_of_le hPM
    rw [sum_split, Finset.sum_eq_zero (s := Finset.range e), add_zero]
    · refine sum_congr rfl fun l hl => ?_
      have := Finset.mem_range.1 hl
      rw [hent l i this i.2, hent l j this j.2]
    · intro l _
      rw [q3 (P + l) i (by omega), zero_mul]
  · rw [l3]
    have : rowsMat P P (npEye P : List (List α)) = 1 := by
      funext i j
      simp [rowsMat, entry, npEye, List.getD, Matrix.one_apply, Fin.ext_iff]
    rw [this, Matrix.mul_one]
  · funext i j
    simp only [Matrix.mul_apply, Matrix.transpose_apply, rowsMat]
    rw [npGram_rows l2.2] at h
    rw [← Except.ok.inj h]
    have hi : (i : Nat) < U.length := by rw [l2.1]; exact i.2
    have hj : (j : Nat) < U.length := by rw [l2.1]; exact j.2
    have e1 : entry (U.map fun r => U.map fun q => dotp r q) i j = dotp U[(i : Nat)] U[(j : Nat)] := by simp [entry, List.getD, hi, hj]
    rw [e1]
    unfold dotp
    rw [dot_vector (n := P) (l2.2 _ (List.getElem_mem _)) (l2.2 _ (List.getElem_mem _)), Finset.sum_range]
    refine sum_congr rfl fun l _ => ?_
    simp [entry, ent, List.getD, hi, hj]

/-- **C59**, covariance: whatever the numerical routines, as long as they do what they promise: the run is a history of refinements; V is the inverse of
`Aᵀ VK⁻¹ A`, with A the Jacobian of K with respect to the parameters at the returned estimate and VK the covariance of K computed in the last refinement (so at the
last trial of the refinement before it, or at the first estimate), provided that A has full column rank. -/
theorem C59_covariance (h : ms.SolverReady labels clabels m) (hnorm : ms.normalise = .ok p.hd) (hx : p.xyza.length = p.hd.mu.values.length + p.hd.a.length)
    (ht : ∀ u ∈ ms.mu.unc, u.unc.typeID = 1 ∨ u.unc.typeID = 2) (htl : ms.IgnoresTimes labels clabels) {o : PCRoutines α} (ho : o.Sound) {tol : α} {a : List α}
    {V : List (List α)} {q : PC α δ} (hrun : p.run o tol = .ok (a, V, q)) :
    ∃ n s L VK k Ja, PC.History o tol p (pcMaxIter (p.hd.mu.values.length + p.hd.a.length)) n s L ∧ (s n).2 = a ∧ q = p.at a ∧ (s (n - 1)).1.calcVK = .ok VK ∧
      p.calcFJ a = .ok (k, Ja) ∧ IsSquare V p.hd.a.length ∧ IsUnit (rowsMat p.hd.mu.ks.length p.hd.mu.ks.length VK) ∧
      ((∀ v, (colsMat p.hd.mu.ks.length p.hd.a.length Ja).mulVec v = 0 → v = 0) →
        rowsMat p.hd.a.length p.hd.a.length V * ((colsMat p.hd.mu.ks.length p.hd.a.length Ja).transpose * (rowsMat p.hd.mu.ks.length p.hd.mu.ks.length VK)⁻¹ *
          colsMat p.hd.mu.ks.length p.hd.a.length Ja) = 1) ∧
      (o.Stationary → ((colsMat p.hd.mu.ks.length p.hd.a.length Ja).transpose * (rowsMat p.hd.mu.ks.length p.hd.mu.ks.length VK)⁻¹).mulVec
        (listVec p.hd.mu.ks.length (List.zipWith (· - ·) k p.hd.mu.ks)) = 0) := by
  have hv := normalised_last h hnorm hx
  obtain ⟨n, s, L, J, hh, hsn, ha, hat, hq, hJ, hV⟩ := run_history ho hv hx hrun
  obtain ⟨last, e1, e2, e3⟩ := hh.step (n - 1) (by have := hh.some; omega)
  have e1' := e1
  unfold PC.calcLK at e1
  obtain ⟨VK, f1, f2⟩ := bind_ok.1 e1
  obtain ⟨b, hb, hpb⟩ := hat (n - 1) (by omega)
  obtain ⟨n', hn', hpos, _⟩ := C37_positive_definite f1
  have hn2 : n' = p.hd.mu.ks.length := by
    have hsol : p.asGN.Solves ms := ⟨hnorm, hx, (identS_shape (α := α) p.hd.a.length).1, (identS_shape (α := α) p.hd.a.length).2⟩
    obtain ⟨N, n1, hs⟩ := hsol.setup h
    obtain ⟨_, _, s3⟩ := hs.sizes
    have s3 : p.hd.mu.ks.length = ms.mu.idx.Nm.sum := s3
    have := hs.mu_eq
    unfold pyLast at this
    have := pyGet_ok.1 this
    rw [← List.getLast?_eq_getElem?] at this
    rw [hpb] at hn'
    have e : p.asGN.hd.mu.idx.cNm = (p.at b).hd.mu.idx.cNm := rfl
    rw [e, hn'] at this
    rw [s3]; exact Option.some.inj this
  subst hn2
  obtain ⟨k, Ja, F, c1, c2, c3, c4, _⟩ := C59_residuals h hnorm hx ht htl a ha
  obtain ⟨g1, g2⟩ := ho.chol _ _ _ hpos.square f2
  have hunit := rowsMat_isUnit hpos
  obtain ⟨j1, j2, j3⟩ := getJa_mat ho g1 c1 c3 c4 hJ
  obtain ⟨v1, R, U, v2, v3, v4⟩ := spread_mat ho j1 j2 hV
  refine ⟨n, s, L, VK, k, Ja, hh, hsn, hq, f1, c1, v1, hunit, ?_, ?_⟩
  · intro hA
    rw [v4]
    exact gls_inverse g2 hunit j3 v2 v3 hA
  · intro hst
    obtain ⟨y, C, t1, t2, t3⟩ := hst _ _ _ _ _ e2
    have hlast : (s (n - 1 + 1)).2 = a := by
      rw [Nat.sub_add_cancel hh.some]; exact hsn
    simp only [hlast] at t1 t2
    unfold PC.getJa at t2 hJ
    unfold PC.getF at t1
    rw [hpb, PC.at_calcFJ hv hx ha hb] at t1 t2
    rw [hJ] at t2
    obtain rfl := Except.ok.inj t2
    rw [c1] at t1
    simp only [bind, Except.bind] at t1
    have e0 : (p.at b).hd = p.hd := rfl
    rw [e0, npZip_eq c2] at t1
    obtain ⟨y1, y2⟩ := ho.solve _ _ _ _ g1 (by simp [c2]) t1
    rw [gls_gradient g2 hunit j3 y2]
    funext j
    have := t3 (J[(j : Nat)]'(by omega)) (List.getElem_mem _)
    unfold dotp at this
    rw [dot_vector (n := p.hd.mu.ks.length) (j2 _ (List.getElem_mem _)) y1, Finset.sum_range] at this
    simp only [Matrix.mulVec, dotProduct, Matrix.transpose_apply, colsMat, listVec, Pi.zero_apply]
    refine Eq.trans (sum_congr rfl fun i _ => ?_) this
    simp [entry, ent, List.getD, show (j : Nat) < J.length by omega]

end
end Verif
