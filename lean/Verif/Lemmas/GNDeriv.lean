import Verif.Lemmas.GNResidual
import Verif.Spec.Jacobian
import Mathlib.Analysis.Calculus.Deriv.Add
import Mathlib.Analysis.Calculus.Deriv.Mul
import Mathlib.Analysis.Calculus.Deriv.Comp
/-
The residuals along a line through the current estimate, and their derivatives.
-/
set_option autoImplicit false
namespace Verif
open Finset (sum_congr)
variable {δ : Type}

theorem pyIndex_le {β : Type} [DecidableEq β] {l : List β} {x : β} {i j : Nat} (h : pyIndex l x = .ok i) (hj : l[j]? = some x) : i ≤ j := by
  have hm := List.mem_of_getElem? hj
  rw [pyIndex_of_mem hm] at h
  cases h
  obtain ⟨hlt, he⟩ := List.getElem?_eq_some_iff.1 hj
  by_contra hcon
  have hlt' : j < l.idxOf x := by omega
  unfold List.idxOf at hlt'
  have := List.not_of_lt_findIdx hlt'
  simp [he] at this

theorem ent_along {x d : List ℝ} {t : ℝ} (h : x.length = d.length) (j : Nat) : ent (along x d t) j = ent x j + t * ent d j := by
  unfold along
  by_cases hj : j < x.length
  · simp [ent, List.getD, hj, show j < d.length by omega, List.getElem?_zipWith]
  · simp [ent, List.getD, List.getElem?_zipWith, show ¬ j < d.length by omega, hj]

theorem along_length {x d : List ℝ} {t : ℝ} (h : x.length = d.length) : (along x d t).length = x.length := by
  simp [along, h]

theorem along_drop {x d : List ℝ} {t : ℝ} {T : Nat} : (along x d t).drop T = along (x.drop T) (d.drop T) t := by
  simp [along, List.drop_zipWith]

theorem labelled_along (labels : List String) (name : String) (t : ℝ) : ∀ (x d : List ℝ), x.length = labels.length → d.length = labels.length →
    labelled labels (along x d t) name = along (labelled labels x name) (labelled labels d name) t := by
  induction labels with
  | nil => intro x d _ _; simp [labelled, along]
  | cons l ls ih =>
    intro x d hx hd
    cases x with
    | nil => simp at hx
    | cons a x =>
      cases d with
      | nil => simp at hd
      | cons b d =>
        simp only [List.length_cons, Nat.add_right_cancel_iff] at hx hd
        have ih' := ih x d hx hd
        unfold labelled along at ih' ⊢
        simp only [List.zipWith_cons_cons, List.zip_cons_cons, List.filter_cons]
        by_cases hl : (l == name) = true
        · simp only [hl, if_true, List.map_cons, List.zipWith_cons_cons]
          rw [ih']
        · simp only [hl]
          rw [if_neg Bool.false_ne_true, if_neg Bool.false_ne_true, if_neg Bool.false_ne_true]
          exact ih'

theorem labelled_ent {α : Type} [Zero α] {labels : List String} {w : List α} {T : Nat} (h : w.length = T + labels.length) (name : String) :
    labelled labels (w.drop T) name = (paramPositions labels T name).map (ent w) := by
  have key : ∀ (ls : List String) (vals : List α) (k : Nat), vals.length = ls.length → (∀ i, i < ls.length → vals.getD i 0 = ent w (T + (k + i))) →
      ((ls.zip vals).filter fun p => p.1 == name).map (·.2) = (((ls.zipIdx k).filter fun p => p.1 == name).map fun p => T + p.2).map (ent w) := by
    intro ls
    induction ls with
    | nil => intro vals k _ _; simp
    | cons l ls ih =>
      intro vals k hl hv
      cases vals with
      | nil => simp at hl
      | cons v vals =>
        simp only [List.length_cons, Nat.add_right_cancel_iff] at hl
        have ih' := ih vals (k + 1) hl (fun i hi => by
          have := hv (i + 1) (by simp; omega)
          simp only [List.getD_cons_succ] at this
          rw [this]; congr 1; omega)
        have h0 := hv 0 (by simp)
        simp only [List.getD_cons_zero, Nat.add_zero] at h0
        simp only [List.zipIdx_cons, List.zip_cons_cons, List.filter_cons]
        by_cases hln : (l == name) = true
        · simp only [hln, if_true, List.map_cons]
          rw [ih', h0]
        · simp only [hln]
          rw [if_neg Bool.false_ne_true, if_neg Bool.false_ne_true]
          exact ih'
  unfold labelled paramPositions
  refine key labels (w.drop T) 0 (by rw [List.length_drop]; omega) fun i hi => ?_
  simp [ent, List.getD]

section
variable {α : Type} [Field α] {g : GN α δ} {ms : Evaluable α δ} {labels clabels : List String} {m n : Nat} {N : List Nat}

/-- The un-normalising matrix does not involve the parameters. -/
theorem unconvM_zero {mu : MatchUp α δ} {T n k b r c : Nat} (h : mu.BlockOk T n k b) (hs : n ≤ T) (hc : T ≤ c) : mu.unconvM T n k b r c = 0 := by
  obtain ⟨ib, nb, u, hib, hnb, hu, hle, hk⟩ := h
  have hgetD : mu.idx.idx.getD b 0 = ib := by simp [List.getD, hib]
  have hz : ∀ (l : Nat) (d : Nat → Nat → α), l ≤ nb → gatherM l (fun j => ib + j) d r c = 0 := by
    intro l d hl
    unfold gatherM
    apply Finset.sum_eq_zero
    intro j hj
    have := Finset.mem_range.1 hj
    rw [if_neg (show ¬ (ib + j = c) by omega)]
  have hz' : ∀ (q : Nat) (d : Nat → Nat → α), 1 ≤ q → q ≤ n → gatherM 1 (fun _ => sysPos T n (some q)) d r c = 0 := by
    intro q d h1 h2
    unfold gatherM
    apply Finset.sum_eq_zero
    intro j _
    rw [if_neg]
    simp only [sysPos, Option.getD_some]; omega
  unfold MatchUp.unconvM
  simp only [hu, hgetD]
  cases hun : u.unc with
  | independent uR =>
    simp only [hun] at hk ⊢
    exact hz _ _ (by omega)
  | systematic uR uS =>
    simp only [hun] at hk ⊢
    obtain ⟨_, _, _, q, hq, h1, h2⟩ := hk
    rw [hq, hz _ _ (by omega), hz' q _ h1 h2, add_zero]
  | structured w_i u_i =>
    simp only [hun] at hk ⊢
    obtain ⟨w, uv, hw, huv, _, _, _, hn⟩ := hk
    simp only [hw, huv]
    exact hz _ _ (by omega)
  | structuredSystematic w_i u_i uS =>
    simp only [hun] at hk ⊢
    obtain ⟨⟨w, uv, hw, huv, _, _, _, hn⟩, q, hq, h1, h2⟩ := hk
    simp only [hw, huv, hq]
    rw [hz _ _ (by omega), hz' q _ h1 h2, add_zero]

theorem colAt_full {T k b : Nat} {x : List α} {L r : Nat} (h : g.hd.mu.BlockOk T n k b) (hs : n ≤ T) :
    ∑ j ∈ Finset.range (T + L), g.hd.mu.unconvM T n k b r j * ent x j = g.colAt T n k b x r := by
  rw [sum_split, Finset.sum_eq_zero (s := Finset.range L), add_zero]
  · rfl
  · intro j _
    rw [unconvM_zero h hs (by omega), zero_mul]

/-- The covariates at the solver's estimate, as used by the products. -/
theorem unconvert_colsAt (h : g.Setup ms labels clabels m N n) {s i q k : Nat} (hq : ms.mu.idx.sensor_ms[s]? = some q)
    (hcov : ms.mu.idx.covNumbers s (i + 1) = (List.range q).map (· + 1)) (hk : ms.mu.idx.Nm[i]? = some k) :
    unconvertXs g.hd.mu.w_matrices g.hd.mu.u_matrices g.xyza g.hd.mu.unc g.hd.mu.idx s (i + 1) =
      .ok (g.colsAt (N.sum + n) n k q (blkOf ms.mu.idx s (i + 1)) g.xyza) := by
  rw [ready_unconvert h.ready h.facts hq hcov hk (by rw [h.xlen]; omega)]
  congr 1
  unfold GN.colsAt
  apply List.map_congr_left
  intro c hc
  apply vector_congr
  intro r _
  obtain ⟨_, hb⟩ := blkOf_get hcov (List.mem_range.1 hc)
  rw [h.xlen]
  exact colAt_full (ready_block h.ready h.facts (block_size h.ready.wf.idx hb (by simpa using hk))) (by omega)

/-- The position of the first block of a sensor in a series. -/
theorem refIndex_eq {x : Idx} {s i q b : Nat} (ht : x.n_sensor.length = x.n_mu.length ∧ x.n_cov.length = x.n_mu.length)
    (h : x.covNumbers s i = (List.range q).map (· + 1)) (hq : 1 ≤ q) (hb : pyIndex (x.n_sensor.zip x.n_mu) (s, i) = .ok b) : b = blkOf x s i 0 := by
  have hcov := covBlocks_eq ht h
  have hlt : (covBlocks x s i).Pairwise (· < ·) := by
    unfold covBlocks
    have : ((x.n_sensor.zip x.n_mu).zipIdx.map (·.2)).Pairwise (· < ·) := by
      rw [List.zipIdx_map_snd]; exact List.pairwise_lt_range'
    rw [List.pairwise_map] at this ⊢
    exact this.filter _
  have h0 : (covBlocks x s i)[0]? = some (blkOf x s i 0) := by
    rw [hcov, List.getElem?_map, List.getElem?_range hq]; rfl
  have hbm : b ∈ covBlocks x s i := by
    unfold covBlocks
    refine List.mem_map.2 ⟨((s, i), b), List.mem_filter.2 ⟨?_, by simp⟩, rfl⟩
    rw [List.mem_zipIdx_iff_getElem?]
    exact pyIndex_ok hb
  apply Nat.le_antisymm
  · obtain ⟨_, hbl⟩ := blkOf_get h hq
    obtain ⟨b1, b2, _⟩ := blocks_get hbl
    exact pyIndex_le hb (by rw [List.getElem?_zip_eq_some]; exact ⟨b1, b2⟩)
  · obtain ⟨j, hj, he⟩ := List.getElem_of_mem hbm
    rw [← he]
    have h0' : (covBlocks x s i)[0]'(by omega) = blkOf x s i 0 := by
      have := h0; rw [List.getElem?_eq_getElem (by omega)] at this; exact Option.some.inj this
    rw [← h0']
    rcases Nat.eq_zero_or_pos j with rfl | hj0
    · exact Nat.le_refl _
    · exact Nat.le_of_lt (List.pairwise_iff_getElem.1 hlt 0 j (by omega) hj hj0)

end

section
variable {g : GN ℝ δ} {ms : Evaluable ℝ δ} {labels clabels : List String} {m n : Nat} {N : List Nat}

theorem colAt_along {T k b : Nat} {x w : List ℝ} {t : ℝ} (h : x.length = w.length) (r : Nat) :
    g.colAt T n k b (along x w t) r = g.colAt T n k b x r + t * g.colAt T n k b w r := by
  unfold GN.colAt
  rw [Finset.mul_sum, ← Finset.sum_add_distrib]
  refine sum_congr rfl fun j _ => ?_
  rw [ent_along h]; ring

theorem rowOf_colsAt {T k q r : Nat} {blk : Nat → Nat} {x : List ℝ} (hr : r < k) :
    rowOf (g.colsAt T n k q blk x) r = (List.range q).map fun c => g.colAt T n k (blk c) x r := by
  unfold rowOf GN.colsAt
  rw [List.map_map]
  apply List.map_congr_left
  intro c _
  exact ent_vector hr

theorem rowOf_along {T k q r : Nat} {blk : Nat → Nat} {x w : List ℝ} {t : ℝ} (h : x.length = w.length) (hr : r < k) :
    rowOf (g.colsAt T n k q blk (along x w t)) r = along (rowOf (g.colsAt T n k q blk x) r) (rowOf (g.colsAt T n k q blk w) r) t := by
  rw [rowOf_colsAt hr, rowOf_colsAt hr, rowOf_colsAt hr]
  unfold along
  rw [List.zipWith_map, List.zipWith_self]
  apply List.map_congr_left
  intro c _
  exact colAt_along h r

theorem along_zero {x d : List ℝ} (h : x.length = d.length) : along x d 0 = x := by
  apply List.ext_getElem
  · simp [along, h]
  · intro i h1 h2
    simp [along]

/-- One sensor of one series, along the line `x + t w` through the current estimate: the adjusted measurand exists for every `t`, and its derivative is
the one used by the products. -/
theorem side_deriv (h : g.Setup ms labels clabels m N n) {i k s : Nat} {pair : Nat × Nat} (hp : ms.mu.idx.Im[i]? = some pair)
    (hk : ms.mu.idx.Nm[i]? = some k) (hs : s = pair.1 ∨ s = pair.2) (hsm : g.SmoothSide ms labels clabels (i + 1) k s) {JB : List ℝ} {dR : Nat → Nat → ℝ}
    (hok : g.SideOk { N_var := N.sum + n, N_cov := m, n_uS := n } k (i + 1) s JB dR) {w : List ℝ} (hw : w.length = g.xyza.length) :
    ∃ (Y A : ℝ → List ℝ), (∀ t, g.SideVal ms labels clabels (N.sum + n) n i k s (along g.xyza w t) (Y t) (A t)) ∧
      ∀ r, r < k → HasDerivAt (fun t => ent (A t) r) (ent JB r * ∑ c ∈ Finset.range (N.sum + n + labels.length), dR r c * ent w c) 0 := by
  obtain ⟨hs1, hs2⟩ := h.ready.sides i pair hp
  have hside : ms.SideReady labels clabels m (i + 1) s := by rcases hs with rfl | rfl <;> assumption
  obtain ⟨name, q, f, B, hname, hq, hfm, hB, hBs, hq1, hcov, _⟩ := hside
  obtain ⟨name', q', f', B', X, b, b', hname', hq', hfm', hB', hX, hBB, hkind⟩ := hsm
  rw [hname] at hname'; cases hname'
  rw [hq] at hq'; cases hq'
  rw [hfm] at hfm'; cases hfm'
  rw [hB] at hB'; cases hB'
  rw [unconvert_colsAt h hq hcov hk] at hX
  cases hX
  obtain ⟨name', xt, al, tm, R, JR, B', adj, hname', _, _, _, hR, hB', hadj, _, hJR⟩ := hok
  have e1 : g.hd.mu.idx.sensors = ms.mu.idx.sensors := by rw [h.facts.idx]
  have e3 : g.hd.adjustment_model = ms.adjustment_model := by rw [h.hd]
  rw [e1, hname] at hname'; cases hname'
  rw [e3, hB] at hB'; cases hB'
  have hRf := ready_calcR h hname hq hfm hcov hk xt al tm
  have hcols : ((List.range q).map fun c => vector k fun r =>
        ∑ j ∈ Finset.range g.xyza.length, g.hd.mu.unconvM (N.sum + n) n k (blkOf ms.mu.idx s (i + 1) c) r j * ent g.xyza j) =
      g.colsAt (N.sum + n) n k q (blkOf ms.mu.idx s (i + 1)) g.xyza := by
    have := unconvert_colsAt h hq hcov hk
    rw [ready_unconvert h.ready h.facts hq hcov hk (by rw [h.xlen]; omega)] at this
    exact Except.ok.inj this
  rw [hcols, hR] at hRf
  have hbok : ∀ c, c < q → g.hd.mu.BlockOk (N.sum + n) n k (blkOf ms.mu.idx s (i + 1) c) := by
    intro c hc
    obtain ⟨_, hb⟩ := blkOf_get hcov hc
    exact ready_block h.ready h.facts (block_size h.ready.wf.idx hb (by simpa using hk))
  have hcl : ∀ x : List ℝ, (g.colsAt (N.sum + n) n k q (blkOf ms.mu.idx s (i + 1)) x).length = q := fun x => by simp [GN.colsAt]
  have hcc : ∀ x : List ℝ, ∀ col ∈ g.colsAt (N.sum + n) n k q (blkOf ms.mu.idx s (i + 1)) x, col.length = k := fun x col hc => by
    unfold GN.colsAt at hc
    obtain ⟨c, _, rfl⟩ := List.mem_map.1 hc
    simp
  have hvl : g.hd.mu.values.length = N.sum + n := h.facts.vlen
  have hwd : (w.drop (N.sum + n)).length = labels.length := by rw [List.length_drop, hw, h.xlen]; omega
  have hxd : (g.xyza.drop (N.sum + n)).length = labels.length := by rw [List.length_drop, h.xlen]; omega
  have hal : ∀ t, labelled labels ((along g.xyza w t).drop (N.sum + n)) name =
      along (labelled labels (g.xyza.drop (N.sum + n)) name) (labelled labels (w.drop (N.sum + n)) name) t := by
    intro t
    rw [along_drop, labelled_along _ _ _ _ _ hxd hwd]
  rw [hvl] at hkind
  have hJB : JB = R.map b' := by
    have := hBB R
    rw [hadj] at this
    exact (Prod.mk.inj (Except.ok.inj this)).2
  rcases hkind with ⟨φ, dφ, hpt, hgr⟩ | ⟨href, htype, hgr⟩
  · -- calibrated sensor
    rw [hpt _ _ xt al tm k (hcl _) (hcc _) (labelled_length hxd name)] at hRf
    have hRe : R = (List.range k).map fun r => φ (rowOf (g.colsAt (N.sum + n) n k q (blkOf ms.mu.idx s (i + 1)) g.xyza) r)
        (labelled labels (g.xyza.drop (N.sum + n)) name) := (Prod.mk.inj (Except.ok.inj hRf)).1
    have hJe := (Prod.mk.inj (Except.ok.inj hRf)).2
    rw [hJe] at hJR
    obtain ⟨labels', blk, hl', hmem, hJl, _, hblk, hdR⟩ := hJR
    rw [h.labels_eq] at hl'; cases hl'
    have hqm : q = m := by
      have := hJl
      rw [paramPositions_length] at this
      simp only [List.length_map, List.length_range] at this
      omega
    subst hqm
    have hblk' : ∀ c, c < q → blk c = blkOf ms.mu.idx s (i + 1) c := by
      intro c hc
      have h1 := (hblk c hc).1
      rw [h.facts.blocks_eq, (blkOf_get hcov hc).1] at h1
      exact (Except.ok.inj h1).symm
    refine ⟨fun t => (List.range k).map fun r => φ (rowOf (g.colsAt (N.sum + n) n k q (blkOf ms.mu.idx s (i + 1)) (along g.xyza w t)) r)
        (labelled labels ((along g.xyza w t).drop (N.sum + n)) name),
      fun t => ((List.range k).map fun r => φ (rowOf (g.colsAt (N.sum + n) n k q (blkOf ms.mu.idx s (i + 1)) (along g.xyza w t)) r)
        (labelled labels ((along g.xyza w t).drop (N.sum + n)) name)).map b, ?_, ?_⟩
    · intro t
      refine ⟨name, q, f, B, _, _, hname, hfm, hB, hq1, hcov, hpt _ _ none none none k (hcl _) (hcc _) ?_, hBB _, by simp, by simp⟩
      apply labelled_length
      rw [List.length_drop, along_length hw.symm, h.xlen]; omega
    · intro r hr
      obtain ⟨hg1, hg2⟩ := hgr r hr
      have hd := hg1 (rowOf (g.colsAt (N.sum + n) n k q (blkOf ms.mu.idx s (i + 1)) w) r) (labelled labels (w.drop (N.sum + n)) name)
        (by rw [rowOf_colsAt hr, rowOf_colsAt hr]; simp) (by rw [labelled_length hwd, labelled_length hxd])
      have hfun : (fun t => ent (((List.range k).map fun r => φ (rowOf (g.colsAt (N.sum + n) n k q (blkOf ms.mu.idx s (i + 1)) (along g.xyza w t)) r)
          (labelled labels ((along g.xyza w t).drop (N.sum + n)) name)).map b) r) =
          fun t => b (φ (along (rowOf (g.colsAt (N.sum + n) n k q (blkOf ms.mu.idx s (i + 1)) g.xyza) r) (rowOf (g.colsAt (N.sum + n) n k q (blkOf ms.mu.idx s (i + 1)) w) r) t)
            (along (labelled labels (g.xyza.drop (N.sum + n)) name) (labelled labels (w.drop (N.sum + n)) name) t)) := by
        funext t
        rw [List.map_map]
        have : ent ((List.range k).map (b ∘ fun r => φ (rowOf (g.colsAt (N.sum + n) n k q (blkOf ms.mu.idx s (i + 1)) (along g.xyza w t)) r)
          (labelled labels ((along g.xyza w t).drop (N.sum + n)) name))) r = _ := ent_vector hr
        rw [this, Function.comp, rowOf_along hw.symm hr, hal]
      rw [hfun]
      have hcomp := HasDerivAt.comp_of_eq (h₂ := b) (h := fun t => φ (along (rowOf (g.colsAt (N.sum + n) n k q (blkOf ms.mu.idx s (i + 1)) g.xyza) r)
          (rowOf (g.colsAt (N.sum + n) n k q (blkOf ms.mu.idx s (i + 1)) w) r) t)
            (along (labelled labels (g.xyza.drop (N.sum + n)) name) (labelled labels (w.drop (N.sum + n)) name) t)) (0 : ℝ) hg2 hd (by
          rw [along_zero (by rw [rowOf_colsAt hr, rowOf_colsAt hr]; simp), along_zero (by rw [labelled_length hwd, labelled_length hxd])])
      refine hcomp.congr_deriv ?_
      have hJBr : ent JB r = b' (φ (rowOf (g.colsAt (N.sum + n) n k q (blkOf ms.mu.idx s (i + 1)) g.xyza) r) (labelled labels (g.xyza.drop (N.sum + n)) name)) := by
        rw [hJB, hRe, List.map_map]
        exact ent_vector hr
      rw [hJBr]
      congr 1
      have hJget : ∀ v, v < q + labels.count name → ent (((List.range (q + labels.count name)).map fun j => (List.range k).map fun i_1 =>
          dφ (rowOf (g.colsAt (N.sum + n) n k q (blkOf ms.mu.idx s (i + 1)) g.xyza) i_1) (labelled labels (g.xyza.drop (N.sum + n)) name) j).getD v []) r =
          dφ (rowOf (g.colsAt (N.sum + n) n k q (blkOf ms.mu.idx s (i + 1)) g.xyza) r) (labelled labels (g.xyza.drop (N.sum + n)) name) v := by
        intro v hv
        simp [List.getD, hv, ent, hr]
      have hrl : (rowOf (g.colsAt (N.sum + n) n k q (blkOf ms.mu.idx s (i + 1)) g.xyza) r).length = q := by rw [rowOf_colsAt hr]; simp
      have hall : (labelled labels (g.xyza.drop (N.sum + n)) name).length = labels.count name := labelled_length hxd name
      rw [hrl, hall, list_sum_range, list_sum_range, hdR]
      simp only [add_mul, Finset.sum_add_distrib]
      congr 1
      · simp only [list_sum_range, Finset.sum_mul]
        rw [Finset.sum_comm]
        refine sum_congr rfl fun v hv => ?_
        have hv' := Finset.mem_range.1 hv
        have hcf := colAt_full (x := w) (L := labels.length) (r := r) (hbok v hv') (show n ≤ N.sum + n by omega)
        rw [hblk' v hv']
        rw [hJget v (by omega)]
        have : ∀ c ∈ Finset.range (N.sum + n + labels.length), dφ (rowOf (g.colsAt (N.sum + n) n k q (blkOf ms.mu.idx s (i + 1)) g.xyza) r)
            (labelled labels (g.xyza.drop (N.sum + n)) name) v * g.hd.mu.unconvM (N.sum + n) n k (blkOf ms.mu.idx s (i + 1) v) r c * ent w c =
            dφ (rowOf (g.colsAt (N.sum + n) n k q (blkOf ms.mu.idx s (i + 1)) g.xyza) r) (labelled labels (g.xyza.drop (N.sum + n)) name) v *
            (g.hd.mu.unconvM (N.sum + n) n k (blkOf ms.mu.idx s (i + 1) v) r c * ent w c) := fun c _ => mul_assoc _ _ _
        rw [sum_congr rfl this, ← Finset.mul_sum, hcf]
        congr 1
        rw [rowOf_colsAt hr]
        exact ent_vector hv'
      · have hpl : (paramPositions labels (N.sum + n) name).length = labels.count name := paramPositions_length
        rw [gatherM_apply (fun j hj => ?_), hpl]
        · refine sum_congr rfl fun p hp => ?_
          have hp' := Finset.mem_range.1 hp
          rw [hJget _ (by omega)]
          congr 1
          rw [labelled_ent (by rw [hw, h.xlen]) name]
          have : p < (paramPositions labels (N.sum + n) name).length := by omega
          simp [ent, List.getD, this]
        · have hmem' : (paramPositions labels (N.sum + n) name).getD j 0 ∈ paramPositions labels (N.sum + n) name := by
            simp only [List.getD, List.getElem?_eq_getElem hj, Option.getD_some]
            exact List.getElem_mem hj
          simp only [paramPositions, List.mem_map, List.mem_filter] at hmem'
          obtain ⟨⟨l, z⟩, ⟨hz, _⟩, he⟩ := hmem'
          have := List.mem_zipIdx hz
          unfold paramPositions
          rw [← he]
          simp only at this ⊢
          omega
  · -- reference sensor
    rw [href _ _ xt al tm (hcl _)] at hRf
    have hRe := (Prod.mk.inj (Except.ok.inj hRf)).1
    have hJe := (Prod.mk.inj (Except.ok.inj hRf)).2
    rw [hJe] at hJR
    obtain ⟨ib, uR, ⟨bb, u, hbb, hib, hnb, hu, hun, hul, hle⟩, hdR⟩ := hJR
    have e4 : g.hd.mu.idx.n_sensor.zip g.hd.mu.idx.n_mu = ms.mu.idx.n_sensor.zip ms.mu.idx.n_mu := by rw [h.facts.idx]
    rw [e4] at hbb
    have hbe := refIndex_eq h.ready.tables hcov hq1 hbb
    obtain ⟨_, hbl⟩ := blkOf_get hcov hq1
    rw [hbe] at hib hu
    have hty := htype _ _ u hbl (by rw [← h.facts.unc]; exact hu)
    have hun' : u.unc = .independent uR := by
      rcases hun with h1 | ⟨uS, h1⟩
      · exact h1
      · rw [h1] at hty; simp [Unc.typeID] at hty
    have hhead : ∀ x : List ℝ, (g.colsAt (N.sum + n) n k q (blkOf ms.mu.idx s (i + 1)) x).headD [] =
        vector k (g.colAt (N.sum + n) n k (blkOf ms.mu.idx s (i + 1) 0) x) := by
      intro x
      obtain ⟨q', rfl⟩ : ∃ q', q = q' + 1 := ⟨q - 1, by omega⟩
      unfold GN.colsAt
      rw [List.range_succ_eq_map]
      simp
    have hM : g.hd.mu.unconvM (N.sum + n) n k (blkOf ms.mu.idx s (i + 1) 0) = dR := by
      rw [hdR]
      unfold MatchUp.unconvM
      simp only [hu, hun', List.getD, hib, Option.getD_some]
    refine ⟨fun t => vector k (g.colAt (N.sum + n) n k (blkOf ms.mu.idx s (i + 1) 0) (along g.xyza w t)),
      fun t => (vector k (g.colAt (N.sum + n) n k (blkOf ms.mu.idx s (i + 1) 0) (along g.xyza w t))).map b, ?_, ?_⟩
    · intro t
      refine ⟨name, q, f, B, _, _, hname, hfm, hB, hq1, hcov, by rw [href _ _ none none none (hcl _), hhead], hBB _, by simp, by simp⟩
    · intro r hr
      have hg2 := hgr r hr
      rw [hhead] at hg2
      have hg3 : (vector k (g.colAt (N.sum + n) n k (blkOf ms.mu.idx s (i + 1) 0) g.xyza)).getD r 0 =
        g.colAt (N.sum + n) n k (blkOf ms.mu.idx s (i + 1) 0) g.xyza r := ent_vector hr
      rw [hg3] at hg2
      have hfun : (fun t => ent ((vector k (g.colAt (N.sum + n) n k (blkOf ms.mu.idx s (i + 1) 0) (along g.xyza w t))).map b) r) = fun t =>
          b (g.colAt (N.sum + n) n k (blkOf ms.mu.idx s (i + 1) 0) g.xyza r + t * g.colAt (N.sum + n) n k (blkOf ms.mu.idx s (i + 1) 0) w r) := by
        funext t
        rw [map_vector, ent_vector hr, colAt_along hw.symm]
      rw [hfun]
      have hlin : HasDerivAt (fun t : ℝ => g.colAt (N.sum + n) n k (blkOf ms.mu.idx s (i + 1) 0) g.xyza r + t * g.colAt (N.sum + n) n k (blkOf ms.mu.idx s (i + 1) 0) w r)
          (g.colAt (N.sum + n) n k (blkOf ms.mu.idx s (i + 1) 0) w r) 0 := by
        have := ((hasDerivAt_id (0 : ℝ)).mul_const (g.colAt (N.sum + n) n k (blkOf ms.mu.idx s (i + 1) 0) w r)).const_add
          (g.colAt (N.sum + n) n k (blkOf ms.mu.idx s (i + 1) 0) g.xyza r)
        simpa using this
      have hcomp := HasDerivAt.comp_of_eq (h₂ := b) (0 : ℝ) hg2 hlin (by simp)
      refine hcomp.congr_deriv ?_
      have hJBr : ent JB r = b' (g.colAt (N.sum + n) n k (blkOf ms.mu.idx s (i + 1) 0) g.xyza r) := by
        rw [hJB, hRe, hhead, map_vector, ent_vector hr]
      rw [hJBr, ← hM, colAt_full (hbok 0 hq1) (by omega)]
end
end Verif
