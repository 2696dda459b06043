import Verif.Lemmas.PCReady
/-
The contributions of one sensor in one series to `calc_LK`, and their relation with the Jacobian of the solver.
-/
set_option autoImplicit false
namespace Verif
open Finset (sum_congr)
variable {α δ : Type}

/-- What one side adds: `T` lists its blocks, each with the derivative of the measurand with respect to the normalised variable of the block. -/
structure PC.SideTerms [Field α] (p : PC α δ) (N_var N_cov k n_mu s : Nat) (JB : List α) (dR : Nat → Nat → α) (T : List (Nat × (Nat → α))) : Prop where
  block : ∀ t ∈ T, ∃ c ib, p.hd.mu.idx.blocks[t.1]? = some (s, n_mu, c) ∧ p.hd.mu.idx.idx[t.1]? = some ib ∧ ib + k ≤ N_var
  nodup : (T.map (·.1)).Nodup
  deriv : ∀ i c, i < k → c < N_var → dR i c = (T.map fun t => if p.hd.mu.idx.idx.getD t.1 0 + i = c then t.2 i else 0).sum
  step : ∀ (sg : α) (uK : List α) (lo n : Nat) (st : PCState α), uK.length = k → IsSquare st.VK n → lo + k ≤ n →
    ∃ st', p.sideVar N_cov (lo, lo + k) uK n_mu sg s st = .ok st' ∧ IsSquare st'.VK n ∧ st'.JT = st.JT ∧
      ∀ i j, i < n → j < n → entry st'.VK i j = entry st.VK i j + if i = j ∧ lo ≤ i ∧ i < lo + k then
        (T.map fun t => (sg * ent JB (i - lo) / ent uK (i - lo) * t.2 (i - lo)) * (sg * ent JB (i - lo) / ent uK (i - lo) * t.2 (i - lo))).sum else 0

theorem gather_diag [Field α] {k ib i c : Nat} {d : Nat → α} (hi : i < k) : gatherM k (fun j => ib + j) (diagM d) i c = if ib + i = c then d i else 0 := by
  unfold gatherM diagM
  rw [Finset.sum_eq_single i]
  · simp
  · intro j _ hj
    rw [if_neg (Ne.symm hj)]; simp
  · intro h; exact absurd (Finset.mem_range.2 hi) h

theorem paramPositions_ge {labels : List String} {N_var : Nat} {name : String} : ∀ q ∈ paramPositions labels N_var name, N_var ≤ q := by
  intro q hq
  unfold paramPositions at hq
  obtain ⟨e, _, rfl⟩ := List.mem_map.1 hq
  omega

theorem pc_sideTerms [Field α] {p : PC α δ} {N_var N_cov n_uS k n_mu s : Nat} {JB : List α} {dR : Nat → Nat → α}
    (htype : ∀ u ∈ p.hd.mu.unc, u.unc.typeID = 1) (htab : p.hd.mu.idx.n_cov.length = p.hd.mu.idx.n_mu.length)
    (h : p.asGN.SideOk { N_var := N_var, N_cov := N_cov, n_uS := n_uS } k n_mu s JB dR) : ∃ T, p.SideTerms N_var N_cov k n_mu s JB dR T := by
  obtain ⟨name, xt, al, t, R, JR, B, adj, h1, h2, h3, h4, h5, h6, h7, h8, h9⟩ := h
  have ht12 : ∀ u ∈ p.hd.mu.unc, u.unc.typeID = 1 ∨ u.unc.typeID = 2 := fun u hu => .inl (htype u hu)
  rw [← PC.calcR_eq ht12] at h5
  have hcalc : p.calcR s n_mu = .ok (R, JR) := by
    unfold PC.calcR
    have h1' : p.hd.mu.idx.sensors[s]? = some name := h1
    have h2' : p.hd.mu.getSensorAcrossTrackIndex n_mu name = .ok xt := h2
    have h3' : p.hd.mu.getSensorAlongTrackIndex n_mu name = .ok al := h3
    have h4' : p.hd.mu.getSensorTime n_mu name = .ok t := h4
    simp only [pyGet_some h1', h2', h3', h4', h5, bind, Except.bind]
  have h6' : p.hd.adjustment_model[s]? = some B := h6
  have hside : ∀ (sg : α) (uK : List α) (rows : Nat × Nat) (st : PCState α), p.sideVar N_cov rows uK n_mu sg s st =
      (match JR with
        | none => p.refVar sg JB uK rows s n_mu st
        | some JR => (List.range N_cov).foldlM (p.covVar sg JB uK JR rows s n_mu) st) := by
    intro sg uK rows st
    unfold PC.sideVar
    cases JR <;> simp only [hcalc, pyGet_some h6', h7, bind, Except.bind]
  -- one update
  have upd : ∀ (sg : α) (uK v uR : List α) (lo n : Nat) (VK : List (List α)), uK.length = k → v.length = k → uR.length = k → IsSquare VK n → lo + k ≤ n →
      ∃ JK G V', scaledDiag sg v uR uK = .ok JK ∧ npGram JK = .ok G ∧ addWindow VK lo (lo + k) G = .ok V' ∧ IsSquare V' n ∧
        ∀ i j, i < n → j < n → entry V' i j = entry VK i j + if i = j ∧ lo ≤ i ∧ i < lo + k then
          (sg * ent v (i - lo) * ent uR (i - lo) / ent uK (i - lo)) * (sg * ent v (i - lo) * ent uR (i - lo) / ent uK (i - lo)) else 0 := by
    intro sg uK v uR lo n VK hK hv hR hV hk
    obtain ⟨V', e1, e2, e3⟩ := addWindow_diag (d := vector k fun i => ent (vector k fun i => sg * ent v i * ent uR i / ent uK i) i *
      ent (vector k fun i => sg * ent v i * ent uR i / ent uK i) i) hV (vector_length _ _) hk
    refine ⟨_, _, V', scaledDiag_eq hv hR hK, npGram_diag (vector_length _ _), e1, e2, fun i j hi hj => ?_⟩
    rw [e3 i j hi hj]
    congr 1
    by_cases hc : i = j ∧ lo ≤ i ∧ i < lo + k
    · rw [if_pos hc, if_pos hc, ent_vector (by omega), ent_vector (by omega)]
    · rw [if_neg hc, if_neg hc]
  cases JR with
  | none =>
    obtain ⟨ib, uR, ⟨b, u, hb, hib, hnb, hu, hk, hl, hle⟩, rfl⟩ := h9
    have hb' : pyIndex (p.hd.mu.idx.n_sensor.zip p.hd.mu.idx.n_mu) (s, n_mu) = .ok b := hb
    have hu' : p.hd.mu.unc[b]? = some u := hu
    have hib' : p.hd.mu.idx.idx[b]? = some ib := hib
    have hg := pyIndex_ok hb'
    rw [List.getElem?_zip_eq_some] at hg
    obtain ⟨hg1, hg2⟩ := hg
    simp only at hg1 hg2
    have hlt : b < p.hd.mu.idx.n_cov.length := by rw [htab]; exact (List.getElem?_eq_some_iff.1 hg2).1
    refine ⟨[(b, ent uR)], ?_, by simp, ?_, ?_⟩
    · intro t ht
      simp only [List.mem_cons, List.not_mem_nil, or_false] at ht
      subst ht
      refine ⟨p.hd.mu.idx.n_cov[b], ib, ?_, hib', hle⟩
      unfold Idx.blocks
      simp only [List.getElem?_zip_eq_some]
      exact ⟨hg1, hg2, List.getElem?_eq_getElem hlt⟩
    · intro i c hi hc
      rw [gather_diag hi]
      simp [List.getD, hib']
    · intro sg uK lo n st hK hV hk'
      obtain ⟨JK, G, V', e1, e2, e3, e4, e5⟩ := upd sg uK JB uR lo n st.VK hK h8 hl hV hk'
      refine ⟨{ st with VK := V', JK := some JK }, ?_, e4, rfl, fun i j hi hj => ?_⟩
      · rw [hside]
        unfold PC.refVar
        have hr : u.unc.random = .ok uR := by
          rcases hk with hk | ⟨_, hk⟩ <;> rw [hk] <;> rfl
        simp only [hb', pyGet_some hu', hr, e1, e2, e3, bind, Except.bind, pure, Except.pure]
      · rw [e5 i j hi hj]
        congr 1
        by_cases hc : i = j ∧ lo ≤ i ∧ i < lo + k
        · rw [if_pos hc, if_pos hc]
          simp only [List.map_cons, List.map_nil, List.sum_cons, List.sum_nil, add_zero]
          ring
        · rw [if_neg hc, if_neg hc]
  | some JR =>
    obtain ⟨labels, blk, hl, hmem, hJ, hJc, hblk, rfl⟩ := h9
    -- the random uncertainties of the blocks
    have hur : ∀ c, c < N_cov → ∃ uR u ib, pyIndex p.hd.mu.idx.blocks (s, n_mu, c + 1) = .ok (blk c) ∧ p.hd.mu.unc[blk c]? = some u ∧ u.unc = .independent uR ∧
        uR.length = k ∧ p.hd.mu.idx.idx[blk c]? = some ib ∧ ib + k ≤ N_var := by
      intro c hc
      obtain ⟨hp, ib, nb, u, hib, hnb, hu, hle, hk⟩ := hblk c hc
      have hty := htype u (List.mem_of_getElem? hu)
      cases hun : u.unc with
      | independent uR =>
        rw [hun] at hk
        obtain ⟨hk1, rfl⟩ := hk
        exact ⟨uR, u, ib, hp, hu, hun, hk1, hib, hle⟩
      | systematic _ _ => rw [hun] at hty; simp [Unc.typeID] at hty
      | structured _ _ => rw [hun] at hty; simp [Unc.typeID] at hty
      | structuredSystematic _ _ _ => rw [hun] at hty; simp [Unc.typeID] at hty
    obtain ⟨UR, hUR⟩ : ∃ UR : Nat → List α, ∀ c, c < N_cov → ∃ u ib, pyIndex p.hd.mu.idx.blocks (s, n_mu, c + 1) = .ok (blk c) ∧ p.hd.mu.unc[blk c]? = some u ∧
        u.unc = .independent (UR c) ∧ (UR c).length = k ∧ p.hd.mu.idx.idx[blk c]? = some ib ∧ ib + k ≤ N_var := by
      refine ⟨fun c => if h : c < N_cov then (hur c h).choose else [], fun c hc => ?_⟩
      simp only [hc, dif_pos]
      exact (hur c hc).choose_spec
    have hcol : ∀ c, c < N_cov → JR[c]? = some (JR.getD c []) ∧ (JR.getD c []).length = k := by
      intro c hc
      have hlt : c < JR.length := by
        have : JR.length = N_cov + (paramPositions labels N_var name).length := hJ
        omega
      simp [List.getD, hlt, hJc _ (List.getElem_mem hlt)]
    refine ⟨(List.range N_cov).map fun c => (blk c, fun i => ent (JR.getD c []) i * ent (UR c) i), ?_, ?_, ?_, ?_⟩
    · intro t ht
      obtain ⟨c, hc, rfl⟩ := List.mem_map.1 ht
      obtain ⟨u, ib, hp, hu, _, _, hib, hle⟩ := hUR c (List.mem_range.1 hc)
      exact ⟨c + 1, ib, pyIndex_ok hp, hib, hle⟩
    · rw [List.map_map]
      refine (List.nodup_map_iff_inj_on List.nodup_range).2 fun c hc c' hc' he => ?_
      simp only [Function.comp] at he
      obtain ⟨_, _, hp, _⟩ := hUR c (List.mem_range.1 hc)
      obtain ⟨_, _, hp', _⟩ := hUR c' (List.mem_range.1 hc')
      have e1 := pyIndex_ok hp
      have e2 := pyIndex_ok hp'
      rw [he, e2] at e1
      simp at e1
      omega
    · intro i c hi hc
      have hz : gatherM (paramPositions labels N_var name).length (fun q => (paramPositions labels N_var name).getD q 0)
          (fun i q => ent (JR.getD (N_cov + q) []) i) i c = 0 := by
        unfold gatherM
        apply Finset.sum_eq_zero
        intro q hq
        have hq' := Finset.mem_range.1 hq
        have := paramPositions_ge (labels := labels) (N_var := N_var) (name := name) _ (List.getElem_mem hq')
        rw [if_neg]
        simp only [List.getD, List.getElem?_eq_getElem hq', Option.getD_some]
        omega
      show _ + gatherM _ _ _ i c = _
      rw [hz, add_zero, List.map_map]
      congr 1
      apply List.map_congr_left
      intro v hv
      obtain ⟨u, ib, hp, hu, hun, hul, hib, hle⟩ := hUR v (List.mem_range.1 hv)
      simp only [Function.comp]
      have e : p.asGN.hd.mu.unconvM N_var n_uS k (blk v) i c = if ib + i = c then ent (UR v) i else 0 := by
        have hu' : p.asGN.hd.mu.unc[blk v]? = some u := hu
        have hib' : p.asGN.hd.mu.idx.idx.getD (blk v) 0 = ib := by
          have : p.asGN.hd.mu.idx.idx[blk v]? = some ib := hib
          simp [List.getD, this]
        unfold MatchUp.unconvM
        simp only [hu', hun, hib']
        exact gather_diag hi
      have e2 : p.hd.mu.idx.idx.getD (blk v) 0 = ib := by simp [List.getD, hib]
      show ent (JR.getD v []) i * p.asGN.hd.mu.unconvM N_var n_uS k (blk v) i c = _
      rw [e, e2]
      split <;> simp
    · intro sg uK lo n st hK hV hk
      simp only [hside]
      have key : ∀ (l : List Nat), (∀ c ∈ l, c < N_cov) → ∀ st : PCState α, IsSquare st.VK n →
          ∃ st', l.foldlM (p.covVar sg JB uK JR (lo, lo + k) s n_mu) st = .ok st' ∧ IsSquare st'.VK n ∧ st'.JT = st.JT ∧
          ∀ i j, i < n → j < n → entry st'.VK i j = entry st.VK i j + if i = j ∧ lo ≤ i ∧ i < lo + k then
            (l.map fun c => (sg * ent JB (i - lo) / ent uK (i - lo) * (ent (JR.getD c []) (i - lo) * ent (UR c) (i - lo))) *
              (sg * ent JB (i - lo) / ent uK (i - lo) * (ent (JR.getD c []) (i - lo) * ent (UR c) (i - lo)))).sum else 0 := by
        intro l
        induction l with
        | nil =>
          intro _ st hV
          refine ⟨st, rfl, hV, rfl, fun i j _ _ => ?_⟩
          simp
        | cons c l ih =>
          intro hl st hV
          obtain ⟨u, ib, hp, hu, hun, hul, hib, hle⟩ := hUR c (hl c (by simp))
          obtain ⟨hc1, hc2⟩ := hcol c (hl c (by simp))
          obtain ⟨JK, G, V', e1, e2, e3, e4, e5⟩ := upd sg uK (vector k fun i => ent JB i * ent (JR.getD c []) i) (UR c) lo n st.VK hK (vector_length _ _) hul hV hk
          obtain ⟨st', f1, f2, f3, f4⟩ := ih (fun c hc => hl c (by simp [hc])) { st with VK := V', JK := some JK } e4
          refine ⟨st', ?_, f2, f3, fun i j hi hj => ?_⟩
          · rw [List.foldlM_cons]
            have hcv : p.covVar sg JB uK JR (lo, lo + k) s n_mu st c = .ok { st with VK := V', JK := some JK } := by
              unfold PC.covVar
              simp only [hp, pyGet_some hu, hun, pyGet_some hc1, npZip_ent h8 hc2, e1, bind, Except.bind, pure, Except.pure, needLocal, e2, e3]
            rw [hcv]
            exact f1
          · rw [f4 i j hi hj, e5 i j hi hj, add_assoc]
            congr 1
            by_cases hcc : i = j ∧ lo ≤ i ∧ i < lo + k
            · rw [if_pos hcc, if_pos hcc, if_pos hcc, List.map_cons, List.sum_cons]
              congr 1
              rw [ent_vector (by omega)]
              ring
            · rw [if_neg hcc, if_neg hcc, if_neg hcc, add_zero]
      obtain ⟨st', g1, g2, g3, g4⟩ := key (List.range N_cov) (fun c hc => List.mem_range.1 hc) st hV
      refine ⟨st', g1, g2, g3, fun i j hi hj => ?_⟩
      rw [g4 i j hi hj, List.map_map]
      rfl

end Verif
