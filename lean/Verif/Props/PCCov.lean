import Verif.Lemmas.PCDiag
import Verif.Props.PC
/-
C60: what the matrix of the preconditioner is, on the match-ups it is applied to.
-/
set_option autoImplicit false
namespace Verif
open Finset (sum_congr)
variable {α δ : Type}

section
variable [Field α] {ms : Evaluable α δ} {labels clabels : List String} {m n : Nat} {N : List Nat} {p : PC α δ}

/-- One series of a ready match-up. -/
theorem pc_series {js : List (SeriesJ α)} (hs : p.asGN.Setup ms labels clabels m N n)
    (hj : p.asGN.Shaped { N_var := N.sum + n, N_cov := m, n_uS := n } labels ms.mu.idx.Nm.sum js) (ht : ∀ u ∈ p.hd.mu.unc, u.unc.typeID = 1)
    {i : Nat} {pair : Nat × Nat} {j : SeriesJ α} (hp : p.hd.mu.idx.Im[i]? = some pair) (hji : js[i]? = some j) :
    ∃ t : SeriesT α, t.lo = j.lo ∧ t.k = j.k ∧
      (∀ e ∈ t.T, ∃ s c ib, p.hd.mu.idx.blocks[e.1]? = some (s, i + 1, c) ∧ p.hd.mu.idx.idx[e.1]? = some ib ∧ ib + j.k ≤ N.sum + n) ∧ (t.T.map (·.1)).Nodup ∧
      (∀ q c, q < j.k → c < N.sum + n → -1 * ent j.JB1 q / ent j.uK q * j.dR1 q c + 1 * ent j.JB2 q / ent j.uK q * j.dR2 q c =
        (t.T.map fun e => if p.hd.mu.idx.idx.getD e.1 0 + q = c then e.2 q else 0).sum) ∧
      ∀ st : PCState α, IsSquare st.VK ms.mu.idx.Nm.sum → ∃ st', p.seriesVar m st (pair, i) = .ok st' ∧ IsSquare st'.VK ms.mu.idx.Nm.sum ∧ st'.JT = st.JT ∧
        ∀ a b, a < ms.mu.idx.Nm.sum → b < ms.mu.idx.Nm.sum → entry st'.VK a b = entry st.VK a b +
          if a = b ∧ t.lo ≤ a ∧ a < t.lo + t.k then (t.T.map fun e => e.2 (a - t.lo) * e.2 (a - t.lo)).sum else 0 := by
  obtain ⟨h1, h2, h3, h4, h5, h6, h7⟩ := hj.series i pair j hp hji
  have htab : p.hd.mu.idx.n_cov.length = p.hd.mu.idx.n_mu.length := by
    have e : p.hd.mu.idx = p.asGN.hd.mu.idx := rfl
    rw [e, hs.facts.idx]; exact hs.ready.tables.2
  obtain ⟨T1, t1⟩ := pc_sideTerms ht htab h6
  obtain ⟨T2, t2⟩ := pc_sideTerms ht htab h7
  have hne : pair.1 ≠ pair.2 := by
    have e : p.hd.mu.idx.Im = ms.mu.idx.Im := by
      have : p.hd.mu.idx = p.asGN.hd.mu.idx := rfl
      rw [this, hs.facts.idx]
    rw [e] at hp
    exact (hs.ready.distinct pair (List.mem_of_getElem? hp)).1
  refine ⟨⟨j.lo, j.k, (T1.map fun t => (t.1, fun q => -1 * ent j.JB1 q / ent j.uK q * t.2 q)) ++ T2.map fun t => (t.1, fun q => 1 * ent j.JB2 q / ent j.uK q * t.2 q)⟩,
    rfl, rfl, ?_, ?_, ?_, ?_⟩
  · intro e he
    rcases List.mem_append.1 he with he | he
    · obtain ⟨t, ht', rfl⟩ := List.mem_map.1 he
      obtain ⟨c, ib, e1, e2, e3⟩ := t1.block t ht'
      exact ⟨_, c, ib, e1, e2, e3⟩
    · obtain ⟨t, ht', rfl⟩ := List.mem_map.1 he
      obtain ⟨c, ib, e1, e2, e3⟩ := t2.block t ht'
      exact ⟨_, c, ib, e1, e2, e3⟩
  · rw [List.map_append, List.map_map, List.map_map]
    refine List.Nodup.append t1.nodup t2.nodup ?_
    intro b hb hb'
    obtain ⟨t, ht', hb⟩ := List.mem_map.1 hb
    obtain ⟨t', ht'', hb'⟩ := List.mem_map.1 hb'
    obtain ⟨c, ib, e1, e2, e3⟩ := t1.block t ht'
    obtain ⟨c', ib', f1, f2, f3⟩ := t2.block t' ht''
    simp only [Function.comp] at hb hb'
    rw [hb] at e1
    rw [hb', e1] at f1
    simp only [Option.some.injEq, Prod.mk.injEq] at f1
    exact hne f1.1
  · intro q c hq hc
    rw [t1.deriv q c hq hc, t2.deriv q c hq hc, List.map_append, List.sum_append, List.map_map, List.map_map, ← List.sum_map_mul_left, ← List.sum_map_mul_left]
    congr 1
    · congr 1
      apply List.map_congr_left
      intro t _
      simp only [Function.comp, mul_ite, mul_zero]
    · congr 1
      apply List.map_congr_left
      intro t _
      simp only [Function.comp, mul_ite, mul_zero]
  · intro st hV
    obtain ⟨st1, a1, a2, a3, a4⟩ := t1.step (-1) j.uK j.lo ms.mu.idx.Nm.sum st h5 hV h3
    obtain ⟨st2, b1, b2, b3, b4⟩ := t2.step 1 j.uK j.lo ms.mu.idx.Nm.sum st1 h5 a2 h3
    refine ⟨st2, ?_, b2, b3.trans a3, fun a b ha hb => ?_⟩
    · unfold PC.seriesVar
      simp only [pyGet_some (show p.hd.mu.unck[i]? = some j.uK from h4), pyGet_some (show p.hd.mu.idx.cNm[i]? = some j.lo from h1),
        pyGet_some (show p.hd.mu.idx.cNm[i + 1]? = some (j.lo + j.k) from h2), a1, bind, Except.bind]
      exact b1
    · rw [b4 a b ha hb, a4 a b ha hb, add_assoc]
      congr 1
      by_cases hc : a = b ∧ j.lo ≤ a ∧ a < j.lo + j.k
      · simp only [if_pos hc, List.map_append, List.sum_append, List.map_map]
        rfl
      · simp only [if_neg hc, add_zero]

/-- **C60.** A match-up whose uncertainties are all random (as `Sample2Ind` leaves them), solvable and normalised, at any estimate: `calc_LK` forms a matrix V with
`xᵀ V x = |x|² + |Jᵀ x|²` for every x, J being the Jacobian of the K residuals with respect to the normalised variables, as computed by the full
solver: the covariance of K given the parameters. -/
theorem C60_covariance (h : ms.SolverReady labels clabels m) (hnorm : ms.normalise = .ok p.hd) (hx : p.xyza.length = p.hd.mu.values.length + p.hd.a.length)
    (ht : ∀ u ∈ ms.mu.unc, u.unc.typeID = 1) :
    ∃ V, p.calcVK = .ok V ∧ IsSquare V p.hd.mu.ks.length ∧ ∀ x : List α, x.length = p.hd.mu.ks.length →
      ∃ y, p.asGN.getJPTx (List.replicate p.hd.mu.values.length 0 ++ x) = .ok y ∧
        quadForm p.hd.mu.ks.length V (ent x) = dotp x x + dotp (y.take p.hd.mu.values.length) (y.take p.hd.mu.values.length) := by
  have hsol : p.asGN.Solves ms := ⟨hnorm, hx, (identS_shape (α := α) p.hd.a.length).1, (identS_shape (α := α) p.hd.a.length).2⟩
  obtain ⟨N, n, hs⟩ := hsol.setup h
  obtain ⟨js, hj⟩ := hs.shaped
  obtain ⟨s1, s2, s3⟩ := hs.sizes
  have s1 : p.hd.mu.values.length = N.sum + n := s1
  have s2 : p.hd.a.length = labels.length := s2
  have s3 : p.hd.mu.ks.length = ms.mu.idx.Nm.sum := s3
  have hidx : p.hd.mu.idx = { ms.mu.idx with N_var := N, idx := bumpLast (prefixSums N) n } := hs.facts.idx
  have hblk : p.hd.mu.idx.blocks = ms.mu.idx.blocks := hs.facts.blocks_eq
  have ht' : ∀ u ∈ p.hd.mu.unc, u.unc.typeID = 1 := by
    intro u hu
    have e : p.hd.mu.unc = ms.mu.unc := hs.facts.unc
    exact ht u (by rw [← e]; exact hu)
  have hIm : p.hd.mu.idx.Im = ms.mu.idx.Im := by rw [hidx]
  -- sizes of the blocks after normalisation
  have hN : ∀ (b s i c k : Nat), p.hd.mu.idx.blocks[b]? = some (s, i + 1, c) → ms.mu.idx.Nm[i]? = some k → N[b]? = some k ∧ p.hd.mu.idx.idx[b]? = some (N.take b).sum := by
    intro b s i c k hb hk
    rw [hblk] at hb
    have hsz := block_size h.wf.idx hb hk
    have hlt : b < ms.mu.unc.length := by
      rw [h.wf.unc, ← h.wf.idx.len]; exact (List.getElem?_eq_some_iff.1 hsz).1
    obtain ⟨k', e1, e2⟩ := hs.facts.sizes b k _ (List.getElem?_eq_getElem hlt) hsz
    have hty := ht _ (List.getElem_mem hlt)
    have : k' = k := by
      cases hun : ms.mu.unc[b].unc <;> rw [hun] at hty e2 <;> simp [Unc.typeID] at hty
      simpa [normSize, pure, Except.pure] using e2.symm
    subst this
    refine ⟨e1, ?_⟩
    rw [hidx]
    exact (bumpLast_prefixSums N n).1 b (by rw [hs.facts.len]; exact hlt)
  have hjlen : js.length = p.hd.mu.idx.Im.length := hj.len
  obtain ⟨ts, htl, hts⟩ := exists_list (P := fun i (t : SeriesT α) => ∀ pair j, p.hd.mu.idx.Im[i]? = some pair → js[i]? = some j →
      t.lo = j.lo ∧ t.k = j.k ∧
      (∀ e ∈ t.T, ∃ s c ib, p.hd.mu.idx.blocks[e.1]? = some (s, i + 1, c) ∧ p.hd.mu.idx.idx[e.1]? = some ib ∧ ib + j.k ≤ N.sum + n) ∧ (t.T.map (·.1)).Nodup ∧
      (∀ q c, q < j.k → c < N.sum + n → -1 * ent j.JB1 q / ent j.uK q * j.dR1 q c + 1 * ent j.JB2 q / ent j.uK q * j.dR2 q c =
        (t.T.map fun e => if p.hd.mu.idx.idx.getD e.1 0 + q = c then e.2 q else 0).sum) ∧
      ∀ st : PCState α, IsSquare st.VK ms.mu.idx.Nm.sum → ∃ st', p.seriesVar m st (pair, i) = .ok st' ∧ IsSquare st'.VK ms.mu.idx.Nm.sum ∧ st'.JT = st.JT ∧
        ∀ a b, a < ms.mu.idx.Nm.sum → b < ms.mu.idx.Nm.sum → entry st'.VK a b = entry st.VK a b +
          if a = b ∧ t.lo ≤ a ∧ a < t.lo + t.k then (t.T.map fun e => e.2 (a - t.lo) * e.2 (a - t.lo)).sum else 0) p.hd.mu.idx.Im.length (by
    intro i hi
    obtain ⟨t, ht⟩ := pc_series hs hj ht' (List.getElem?_eq_getElem hi) (List.getElem?_eq_getElem (show i < js.length by omega))
    refine ⟨t, fun pair j e1 e2 => ?_⟩
    rw [List.getElem?_eq_getElem hi] at e1; cases e1
    rw [List.getElem?_eq_getElem (show i < js.length by omega)] at e2; cases e2
    exact ht)
  have hk : ∀ (i : Nat) (j : SeriesJ α), js[i]? = some j → ms.mu.idx.Nm[i]? = some j.k := by
    intro i j hji
    have hi : i < p.hd.mu.idx.Im.length := by rw [← hjlen]; exact (List.getElem?_eq_some_iff.1 hji).1
    obtain ⟨h1, h2, h3, _⟩ := hj.series i _ j (List.getElem?_eq_getElem hi) hji
    rw [hs.cNm_eq] at h1 h2
    have hi' : i < ms.mu.idx.Nm.length := by rw [← h.pairs, ← hIm]; exact hi
    rw [prefixSums_getElem?_of_le _ (by omega)] at h1 h2
    have e1 := Option.some.inj h1
    have e2 := Option.some.inj h2
    rw [take_succ_sum _ (List.getElem?_eq_getElem hi'), e1] at e2
    rw [List.getElem?_eq_getElem hi']
    congr 1
    omega
  -- the fold
  obtain ⟨st, f1, f2, f3, f4⟩ := fold_series (p := p) (N_cov := m) (n := ms.mu.idx.Nm.sum) (l := p.hd.mu.idx.Im.zipIdx) (ts := ts) (by
    rw [List.forall₂_iff_get]
    refine ⟨by simp [htl], fun i h1 h2 => ?_⟩
    have hi : i < p.hd.mu.idx.Im.length := by simpa using h1
    have hij : i < js.length := by omega
    obtain ⟨_, _, _, _, _, h6⟩ := hts i _ (List.getElem?_eq_getElem h2) _ _ (List.getElem?_eq_getElem hi) (List.getElem?_eq_getElem hij)
    simpa using h6)
    { VK := npEye ms.mu.idx.Nm.sum, JT := List.replicate labels.dedup.length (List.replicate ms.mu.idx.Nm.sum 0), JK := none } ⟨by simp [npEye], by simp [npEye]⟩
  have hcalc : p.calcVK = .ok (addSys st.VK (List.replicate labels.dedup.length (List.replicate ms.mu.idx.Nm.sum 0))) := by
    unfold PC.calcVK
    have e1 : pyLast p.hd.mu.idx.cNm = .ok ms.mu.idx.Nm.sum := hs.mu_eq
    have e2 : p.hd.mu.idx.parameter_sensor = some labels := hs.labels_eq
    have e3 : pyLast p.hd.mu.idx.n_cov = .ok m := by
      have := h.covariates
      rw [List.getLast?_eq_getElem?] at this
      unfold pyLast
      rw [hidx]
      exact pyGet_some this
    rw [e1]
    simp only [e2, needKey, e3, f1, bind, Except.bind, pure, Except.pure]
    rw [f3]
  refine ⟨_, hcalc, by rw [s3]; exact (addSys_ok f2).1, fun x hxl => ?_⟩
  have hent : ∀ a b, a < ms.mu.idx.Nm.sum → b < ms.mu.idx.Nm.sum → entry (addSys st.VK (List.replicate labels.dedup.length (List.replicate ms.mu.idx.Nm.sum 0))) a b =
      if a = b then 1 + ((rowTerms (fun b => p.hd.mu.idx.idx.getD b 0) ts a).map fun e => e.2 * e.2).sum else 0 := by
    intro a b ha hb
    rw [addSys_zero f2 a b ha hb, f4 a b ha hb, rowTerms_sum]
    have : entry (npEye ms.mu.idx.Nm.sum : List (List α)) a b = if a = b then 1 else 0 := by simp [entry, npEye, List.getD, ha, hb]
    rw [this]
    by_cases hab : a = b
    · rw [if_pos hab, if_pos hab, if_pos hab]
    · rw [if_neg hab, if_neg hab, if_neg hab, add_zero]
  have hyl : (List.replicate p.hd.mu.values.length 0 ++ x).length = N.sum + n + ms.mu.idx.Nm.sum := by simp [hxl, s1, s3]
  refine ⟨_, prod_bwd_mat hj hyl, ?_⟩
  -- the transposed product
  have hrow : ∀ r c, r < ms.mu.idx.Nm.sum → c < N.sum + n → p.asGN.prodM (N.sum + n) labels.length js (N.sum + n + r) c =
      ((rowTerms (fun b => p.hd.mu.idx.idx.getD b 0) ts r).map fun e => if e.1 = c then e.2 else 0).sum := by
    intro r c hr hc
    have e0 : p.asGN = ({ p.asGN with S := identS labels.length } : GN α δ) := by
      unfold PC.asGN identS
      rw [s2]
    rw [e0, prodM_ident (by omega), rowTerms_sum]
    unfold jacM
    rw [if_neg (by omega), zero_add]
    congr 1
    apply List.ext_getElem
    · simp [htl, hjlen]
    · intro i h1 h2
      have hij : i < js.length := by simpa using h1
      have hit : i < ts.length := by simpa using h2
      have hi : i < p.hd.mu.idx.Im.length := by omega
      obtain ⟨g1, g2, g3, g4, g5, _⟩ := hts i _ (List.getElem?_eq_getElem hit) _ _ (List.getElem?_eq_getElem hi) (List.getElem?_eq_getElem hij)
      simp only [List.getElem_map]
      rw [g1, g2]
      unfold SeriesJ.mat covM
      by_cases hw : js[i].lo ≤ r ∧ r < js[i].lo + js[i].k
      · rw [if_pos (by omega), if_pos (by omega), if_pos hw, ← g5 (r - js[i].lo) c (by omega) hc]
        have hq : N.sum + n + r - (N.sum + n + js[i].lo) = r - js[i].lo := by omega
        rw [hq]
      · rw [if_neg (by omega), if_neg (by omega), if_neg hw, add_zero]
  -- positions
  have hpos : ∀ r e, r < ms.mu.idx.Nm.sum → e ∈ rowTerms (fun b => p.hd.mu.idx.idx.getD b 0) ts r →
      ∃ (i b q lo k : Nat), e.1 = (N.take b).sum + q ∧ N[b]? = some k ∧ q < k ∧ ms.mu.idx.n_mu[b]? = some (i + 1) ∧ ms.mu.idx.cNm[i]? = some lo ∧ r = lo + q ∧ (N.take b).sum + k ≤ N.sum + n := by
    intro r e hr he
    unfold rowTerms at he
    obtain ⟨t, htm, he⟩ := List.mem_flatMap.1 he
    obtain ⟨i, hit, rfl⟩ := List.mem_iff_getElem.1 htm
    have hi : i < p.hd.mu.idx.Im.length := by omega
    have hij : i < js.length := by omega
    obtain ⟨g1, g2, g3, g4, g5, _⟩ := hts i _ (List.getElem?_eq_getElem hit) _ _ (List.getElem?_eq_getElem hi) (List.getElem?_eq_getElem hij)
    split at he
    · rename_i hw
      obtain ⟨e', he', rfl⟩ := List.mem_map.1 he
      obtain ⟨s, c, ib, k1, k2, k3⟩ := g3 e' he'
      obtain ⟨m1, m2⟩ := hN _ _ _ _ _ k1 (hk i _ (List.getElem?_eq_getElem hij))
      rw [hblk] at k1
      obtain ⟨_, n2, _⟩ := blocks_get k1
      obtain ⟨w1, _⟩ := hj.series i _ _ (List.getElem?_eq_getElem hi) (List.getElem?_eq_getElem hij)
      rw [m2] at k2
      have hib := Option.some.inj k2
      refine ⟨i, e'.1, r - ts[i].lo, js[i].lo, js[i].k, ?_, m1, by omega, n2, ?_, by omega, by rw [hib]; exact k3⟩
      · simp [List.getD, m2]
      · have : p.asGN.hd.mu.idx.cNm = ms.mu.idx.cNm := by
          show p.hd.mu.idx.cNm = _
          rw [hidx]
        rw [← this]; exact w1
    · simp at he
  have hsep : ∀ b b' q q' k k', N[b]? = some k → N[b']? = some k' → q < k → q' < k' → (N.take b).sum + q = (N.take b').sum + q' → b = b' := by
    intro b b' q q' k k' h1 h2 h3 h4 he
    by_contra hne
    rcases Nat.lt_or_gt_of_ne hne with hlt | hlt
    · have := take_sum_le_take_sum N (show b + 1 ≤ b' by omega)
      rw [take_succ_sum _ h1] at this
      omega
    · have := take_sum_le_take_sum N (show b' + 1 ≤ b by omega)
      rw [take_succ_sum _ h2] at this
      omega
  have hgram := gram_rows (N := N.sum + n) (n := ms.mu.idx.Nm.sum) (rowTerms (fun b => p.hd.mu.idx.idx.getD b 0) ts) (by
      intro r hr e he
      obtain ⟨i, b, q, lo, k, e1, e2, e3, e4, e5, e6, e7⟩ := hpos r e hr he
      omega) (by
      intro r hr
      unfold rowTerms
      rw [List.map_flatMap]
      rw [List.nodup_flatMap]
      refine ⟨?_, ?_⟩
      · intro t htm
        obtain ⟨i, hit, rfl⟩ := List.mem_iff_getElem.1 htm
        have hi : i < p.hd.mu.idx.Im.length := by omega
        have hij : i < js.length := by omega
        obtain ⟨g1, g2, g3, g4, g5, _⟩ := hts i _ (List.getElem?_eq_getElem hit) _ _ (List.getElem?_eq_getElem hi) (List.getElem?_eq_getElem hij)
        split
        · rename_i hw
          rw [List.map_map]
          have hnd := (List.nodup_map_iff_inj_on (List.Nodup.of_map _ g4)).1 g4
          refine (List.nodup_map_iff_inj_on (List.Nodup.of_map _ g4)).2 fun a ha b hb hab => hnd a ha b hb ?_
          simp only [Function.comp] at hab
          obtain ⟨s, c, ib, k1, k2, k3⟩ := g3 a ha
          obtain ⟨s', c', ib', k1', k2', k3'⟩ := g3 b hb
          obtain ⟨m1, m2⟩ := hN _ _ _ _ _ k1 (hk i _ (List.getElem?_eq_getElem hij))
          obtain ⟨m1', m2'⟩ := hN _ _ _ _ _ k1' (hk i _ (List.getElem?_eq_getElem hij))
          simp only [List.getD, m2, m2', Option.getD_some] at hab
          exact hsep _ _ (r - ts[i].lo) (r - ts[i].lo) _ _ m1 m1' (by omega) (by omega) hab
        · simp
      · rw [List.pairwise_iff_getElem]
        intro i i' hi hi' hlt
        intro v hv hv'
        have aux : ∀ i (hi : i < ts.length), v ∈ List.map (·.1) (if ts[i].lo ≤ r ∧ r < ts[i].lo + ts[i].k then
            List.map (fun e => (p.hd.mu.idx.idx.getD e.1 0 + (r - ts[i].lo), e.2 (r - ts[i].lo))) ts[i].T else []) →
            ∃ b q k, v = (N.take b).sum + q ∧ N[b]? = some k ∧ q < k ∧ ms.mu.idx.n_mu[b]? = some (i + 1) := by
          intro i hit hv
          have hi : i < p.hd.mu.idx.Im.length := by omega
          have hij : i < js.length := by omega
          obtain ⟨g1, g2, g3, g4, g5, _⟩ := hts i _ (List.getElem?_eq_getElem hit) _ _ (List.getElem?_eq_getElem hi) (List.getElem?_eq_getElem hij)
          split at hv
          · rename_i hw
            rw [List.map_map] at hv
            obtain ⟨e', he', rfl⟩ := List.mem_map.1 hv
            obtain ⟨s, c, ib, k1, k2, k3⟩ := g3 e' he'
            obtain ⟨m1, m2⟩ := hN _ _ _ _ _ k1 (hk i _ (List.getElem?_eq_getElem hij))
            rw [hblk] at k1
            obtain ⟨_, n2, _⟩ := blocks_get k1
            exact ⟨e'.1, r - ts[i].lo, js[i].k, by simp [List.getD, m2], m1, by omega, n2⟩
          · simp at hv
        obtain ⟨b, q, k, e1, e2, e3, e4⟩ := aux i hi hv
        obtain ⟨b', q', k', e1', e2', e3', e4'⟩ := aux i' hi' hv'
        have := hsep _ _ _ _ _ _ e2 e2' e3 e3' (e1.symm.trans e1')
        subst this
        rw [e4] at e4'
        have := Option.some.inj e4'
        omega) (by
      intro r r' hr hr' hne e he e' he' heq
      obtain ⟨i, b, q, lo, k, e1, e2, e3, e4, e5, e6, e7⟩ := hpos r e hr he
      obtain ⟨i', b', q', lo', k', e1', e2', e3', e4', e5', e6', e7'⟩ := hpos r' e' hr' he'
      have hb := hsep _ _ _ _ _ _ e2 e2' e3 e3' (by omega)
      subst hb
      rw [e4] at e4'
      have hi := Option.some.inj e4'
      have : i = i' := by omega
      subst this
      rw [e5] at e5'
      have := Option.some.inj e5'
      omega) (ent x)
  -- conclusion
  have hz : ∀ c, c < N.sum + n → (∑ r ∈ Finset.range (N.sum + n + ms.mu.idx.Nm.sum), p.asGN.prodM (N.sum + n) labels.length js r c *
      ent (List.replicate p.hd.mu.values.length 0 ++ x) r) =
      ∑ r ∈ Finset.range ms.mu.idx.Nm.sum, ((rowTerms (fun b => p.hd.mu.idx.idx.getD b 0) ts r).map fun e => if e.1 = c then e.2 else 0).sum * ent x r := by
    intro c hc
    rw [sum_split, Finset.sum_eq_zero, zero_add]
    · refine sum_congr rfl fun r hr => ?_
      rw [hrow r c (Finset.mem_range.1 hr) hc]
      congr 1
      simp [ent, List.getD, List.getElem?_append, s1]
    · intro r hr
      have hr' := Finset.mem_range.1 hr
      have : ent (List.replicate p.hd.mu.values.length (0 : α) ++ x) r = 0 := by
        simp [ent, List.getD, List.getElem?_append, List.getElem?_replicate, s1, hr']
      rw [this, mul_zero]
  have htake : (vector (N.sum + n + labels.length) fun d => ∑ r ∈ Finset.range (N.sum + n + ms.mu.idx.Nm.sum), p.asGN.prodM (N.sum + n) labels.length js r d *
      ent (List.replicate p.hd.mu.values.length 0 ++ x) r).take p.hd.mu.values.length = vector (N.sum + n) fun c =>
      ∑ r ∈ Finset.range ms.mu.idx.Nm.sum, ((rowTerms (fun b => p.hd.mu.idx.idx.getD b 0) ts r).map fun e => if e.1 = c then e.2 else 0).sum * ent x r := by
    rw [s1]
    have e := take_eq_vector (l := vector (N.sum + n + labels.length) fun d => ∑ r ∈ Finset.range (N.sum + n + ms.mu.idx.Nm.sum), p.asGN.prodM (N.sum + n) labels.length js r d *
      ent (List.replicate (N.sum + n) 0 ++ x) r) (n := N.sum + n) (by simp)
    unfold slice at e
    rw [List.drop_zero] at e
    rw [Nat.sub_zero] at e
    rw [e]
    apply vector_congr
    intro c hc
    rw [ent_vector (by omega), ← hz c hc, s1]
  show quadForm _ _ _ = dotp x x + dotp (List.take _ _) (List.take _ _)
  rw [htake]
  unfold dotp
  rw [dot_vector (vector_length _ _) (vector_length _ _), dot_vector (n := ms.mu.idx.Nm.sum) (by omega) (by omega)]
  have e : ∀ c ∈ Finset.range (N.sum + n), ent (vector (N.sum + n) fun c =>
      ∑ r ∈ Finset.range ms.mu.idx.Nm.sum, ((rowTerms (fun b => p.hd.mu.idx.idx.getD b 0) ts r).map fun e => if e.1 = c then e.2 else 0).sum * ent x r) c *
      ent (vector (N.sum + n) fun c =>
      ∑ r ∈ Finset.range ms.mu.idx.Nm.sum, ((rowTerms (fun b => p.hd.mu.idx.idx.getD b 0) ts r).map fun e => if e.1 = c then e.2 else 0).sum * ent x r) c = (∑ r ∈ Finset.range ms.mu.idx.Nm.sum, ((rowTerms (fun b => p.hd.mu.idx.idx.getD b 0) ts r).map fun e => if e.1 = c then e.2 else 0).sum * ent x r) * (∑ r ∈ Finset.range ms.mu.idx.Nm.sum, ((rowTerms (fun b => p.hd.mu.idx.idx.getD b 0) ts r).map fun e => if e.1 = c then e.2 else 0).sum * ent x r) := by
    intro c hc
    rw [ent_vector (Finset.mem_range.1 hc)]
  rw [sum_congr rfl e, hgram, s3, ← Finset.sum_add_distrib]
  unfold quadForm
  refine sum_congr rfl fun a ha => ?_
  rw [Finset.sum_eq_single a]
  · rw [hent a a (Finset.mem_range.1 ha) (Finset.mem_range.1 ha), if_pos rfl]
    ring
  · intro b hb hne
    rw [hent a b (Finset.mem_range.1 ha) (Finset.mem_range.1 hb), if_neg (Ne.symm hne)]
    ring
  · intro hna; exact absurd ha hna

end

namespace Fixture

/-- Three match-ups, random uncertainties only. -/
def plain : Dataset ℚ := { rolling with s1 := qside "A" 2 [1, 1] [0, 0] 5, s2 := qside "B" 2 [1, 1] [0, 0] 50 }

theorem plain_solvable : SolvableFiles [plain] (gnModels : SensorData ℚ (SensorModel ℚ Int) (AdjModel ℚ)) 2 := by
  refine ⟨⟨?_, ?_⟩, by decide, ?_, ⟨plain, by simp, plain.s1, .inl rfl, rfl⟩, ?_, ?_⟩
  · intro d hd
    simp only [List.mem_cons, List.not_mem_nil, or_false] at hd
    subst hd
    show "A" ≠ "B"; decide
  · intro d hd e he s hs t ht _
    simp only [List.mem_cons, List.not_mem_nil, or_false] at hd he hs ht
    subst hd; subst he
    rcases hs with rfl | rfl <;> rcases ht with rfl | rfl <;> rfl
  · intro d hd s hs
    simp only [List.mem_cons, List.not_mem_nil, or_false] at hd
    subst hd
    rcases hs with rfl | rfl <;> exact ⟨show 1 ≤ 2 by omega, show 2 ≤ 2 by omega⟩
  · intro d hd s hs c W U hc ht hW hU
    simp only [List.mem_cons, List.not_mem_nil, or_false] at hd
    subst hd
    have : s.m = 2 := by rcases hs with rfl | rfl <;> rfl
    rw [this] at hc
    have h1 : ∀ c, c < 2 → ¬ (plain.s1.utype c = 3 ∨ plain.s1.utype c = 4) := by decide
    have h2 : ∀ c, c < 2 → ¬ (plain.s2.utype c = 3 ∨ plain.s2.utype c = 4) := by decide
    rcases hs with rfl | rfl
    · exact absurd ht (h1 c hc)
    · exact absurd ht (h2 c hc)
  · intro d hd s hs e he
    simp only [List.mem_cons, List.not_mem_nil, or_false] at hd
    subst hd
    have hAB : "A" ≠ "B" := by decide
    rcases hs with rfl | rfl
    · have hn : plain.s1.name = "A" := rfl
      simp only [gnModels, hn, List.mem_cons, Prod.mk.injEq, true_and, hAB, false_and, List.not_mem_nil, or_false] at he
      subst he
      refine ⟨(by intro B hB; cases hB), .inr ⟨gnRef_reference _ _, ?_⟩⟩
      have : ∀ c, c < plain.s1.m → plain.s1.utype c = 1 ∨ plain.s1.utype c = 2 := by decide
      exact this
    · have hn : plain.s2.name = "B" := rfl
      simp only [gnModels, hn, List.mem_cons, Prod.mk.injEq, true_and, hAB.symm, false_and, List.not_mem_nil, or_false, false_or] at he
      subst he
      refine ⟨?_, .inl ⟨gnCal_calibrated _, rfl, by simp⟩⟩
      intro B hB
      cases hB
      intro R
      exact ⟨_, _, rfl, by simp, by simp⟩

/-- The files opened and normalised, and the matrix. -/
def pcStart : Py (Evaluable ℚ Int × Evaluable ℚ Int × List (List ℚ)) := do
  let ms ← openMatchUpWith qenv defaultAdjustment [plain] gnModels
  let hd ← ms.normalise
  let V ← (PC.init hd).calcVK
  pure (ms, hd, V)

end Fixture

/-- The hypotheses of C60 are met by an opened file, and the matrix is not the identity. -/
theorem C60_case : ∃ (ms hd : Evaluable ℚ Int) (V : List (List ℚ)) (labels clabels : List String), ms.SolverReady labels clabels 2 ∧ ms.normalise = .ok hd ∧
    (∀ u ∈ ms.mu.unc, u.unc.typeID = 1) ∧ (PC.init hd).xyza.length = hd.mu.values.length + hd.a.length ∧ (PC.init hd).calcVK = .ok V ∧
    ∀ i ∈ List.range 3, entry V i i ≠ 1 := by
  obtain ⟨⟨ms, hd, V⟩, h1, h2⟩ := Fixture.check_ok' (x := (Fixture.pcStart : Py (Evaluable ℚ Int × Evaluable ℚ Int × List (List ℚ))))
    (fun p => decide (∀ u ∈ p.1.mu.unc, u.unc.typeID = 1) && decide (∀ i ∈ List.range 3, entry p.2.2 i i ≠ 1)) (by decide +kernel)
  simp only [Bool.and_eq_true, decide_eq_true_eq] at h2
  unfold Fixture.pcStart at h1
  obtain ⟨ms', g1, h1⟩ := bind_ok.1 h1
  obtain ⟨hd', g2, h1⟩ := bind_ok.1 h1
  obtain ⟨V', g3, h1⟩ := bind_ok.1 h1
  cases pure_ok.1 h1
  obtain ⟨labels, clabels, hr⟩ := opened_solverReady Fixture.qenv_enum Fixture.plain_solvable g1
  exact ⟨ms, hd, V, labels, clabels, hr, g2, h2.1, by simp [PC.init], g3, h2.2⟩

end Verif
