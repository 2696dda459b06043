import Verif.Lemmas.PCTerms
import Verif.Lemmas.GNDeriv
import Verif.Spec.PC
/-
`calc_fJa` in closed form.
-/
set_option autoImplicit false
namespace Verif
open Finset (sum_congr)
variable {α δ : Type}

section
variable [Field α]

theorem paramPositions_shift (labels : List String) (T : Nat) (name : String) : paramPositions labels T name = (paramPositions labels 0 name).map (T + ·) := by
  unfold paramPositions
  rw [List.map_map]
  apply List.map_congr_left
  intro p _
  simp [Function.comp]

theorem paramPositions_nodup (labels : List String) (T : Nat) (name : String) : (paramPositions labels T name).Nodup := by
  unfold paramPositions
  have h : (labels.zipIdx.map (·.2)).Nodup := by rw [List.zipIdx_map_snd]; exact List.nodup_range'
  have h2 : ((labels.zipIdx.filter fun p => p.1 == name).map (·.2)).Nodup := h.sublist (List.Sublist.map _ List.filter_sublist)
  have : (labels.zipIdx.filter fun p => p.1 == name).map (fun p => T + p.2) = ((labels.zipIdx.filter fun p => p.1 == name).map (·.2)).map (T + ·) := by
    rw [List.map_map]; rfl
  rw [this]
  exact h2.map (fun a b hab => by simpa using hab)

theorem mem_paramPositions {labels : List String} {name : String} {c : Nat} : c ∈ paramPositions labels 0 name ↔ labels[c]? = some name := by
  unfold paramPositions
  simp only [List.mem_map, List.mem_filter, Prod.exists, beq_iff_eq, Nat.zero_add]
  constructor
  · rintro ⟨l, i, ⟨hm, rfl⟩, rfl⟩
    exact List.mem_zipIdx_iff_getElem?.1 hm
  · intro h
    exact ⟨name, c, ⟨List.mem_zipIdx_iff_getElem?.2 h, rfl⟩, rfl⟩

theorem setColumns_ok {n a k : Nat} (hk : a + k ≤ n) : ∀ {pos : List Nat} {M A : List (List α)}, (∀ col ∈ M, col.length = n) → pos.Nodup → (∀ q ∈ pos, q < M.length) →
    A.length = pos.length → (∀ c ∈ A, c.length = k) → ∃ M', setColumns M a (a + k) pos A = .ok M' ∧ M'.length = M.length ∧ (∀ col ∈ M', col.length = n) ∧
      ∀ c, (c ∉ pos → M'[c]? = M[c]?) ∧ ∀ j, pos[j]? = some c → M'[c]? = some (vector n fun r => if a ≤ r ∧ r < a + k then ent (A.getD j []) (r - a) else ent (M.getD c []) r) := by
  intro pos
  induction pos with
  | nil =>
    intro M A hM _ _ hA _
    refine ⟨M, by simp [setColumns, pure, Except.pure], rfl, hM, fun c => ⟨fun _ => rfl, fun j hj => by simp at hj⟩⟩
  | cons q pos ih =>
    intro M A hM hnd hq hA hAk
    cases A with
    | nil => simp at hA
    | cons v A =>
      obtain ⟨hq1, hnd'⟩ := List.nodup_cons.1 hnd
      have hqM : q < M.length := hq q (by simp)
      have hcol : M[q]? = some M[q] := List.getElem?_eq_getElem hqM
      have hcl : M[q].length = n := hM _ (List.getElem_mem hqM)
      have hset := setSlice_vector (l := M[q]) (v := v) (a := a) (k := k) (hAk v (by simp)) (by rw [hcl]; exact hk)
      rw [hcl] at hset
      generalize hvec : (vector n fun r => if a ≤ r ∧ r < a + k then ent v (r - a) else ent M[q] r) = w at hset
      obtain ⟨M', e1, e2, e3, e4⟩ := ih (M := M.set q w) (A := A) (by
        intro col hc
        rcases List.mem_or_eq_of_mem_set hc with h | rfl
        · exact hM _ h
        · rw [← hvec]; simp) hnd' (fun x hx => by simpa using hq x (by simp [hx])) (by simpa using hA) (fun c hc => hAk c (by simp [hc]))
      refine ⟨M', ?_, by simpa using e2, e3, fun c => ⟨fun hc => ?_, fun j hj => ?_⟩⟩
      · unfold setColumns at e1 ⊢
        rw [List.zip_cons_cons, List.foldlM_cons]
        simp only [pyGet_some hcol, hset, bind, Except.bind, pure, Except.pure]
        exact e1
      · rw [List.mem_cons, not_or] at hc
        rw [(e4 c).1 hc.2, List.getElem?_set, if_neg (Ne.symm hc.1)]
      · cases j with
        | zero =>
          simp only [List.getElem?_cons_zero, Option.some.injEq] at hj
          subst hj
          rw [(e4 q).1 hq1, List.getElem?_set, if_pos rfl, if_pos hqM, ← hvec]
          simp [List.getD, hqM]
        | succ j =>
          simp only [List.getElem?_cons_succ] at hj
          have hne : q ≠ c := fun h => hq1 (by rw [h]; exact List.mem_of_getElem? hj)
          rw [(e4 c).2 j hj]
          congr 1
          apply vector_congr
          intro r _
          simp only [List.getD_cons_succ]
          congr 1
          rw [List.getD, List.getElem?_set, if_neg hne]
          rfl

/-- Entries of the matrix after `setColumns`. -/
theorem setColumns_entry {n a k : Nat} (hk : a + k ≤ n) {pos : List Nat} {M A : List (List α)} (hM : ∀ col ∈ M, col.length = n) (hnd : pos.Nodup)
    (hq : ∀ q ∈ pos, q < M.length) (hA : A.length = pos.length) (hAk : ∀ c ∈ A, c.length = k) :
    ∃ M', setColumns M a (a + k) pos A = .ok M' ∧ M'.length = M.length ∧ (∀ col ∈ M', col.length = n) ∧
      ∀ c r, r < n → ent (M'.getD c []) r = if c ∈ pos ∧ a ≤ r ∧ r < a + k then
        ∑ j ∈ Finset.range pos.length, (if pos.getD j 0 = c then ent (A.getD j []) (r - a) else 0) else ent (M.getD c []) r := by
  obtain ⟨M', e1, e2, e3, e4⟩ := setColumns_ok hk hM hnd hq hA hAk
  refine ⟨M', e1, e2, e3, fun c r hr => ?_⟩
  by_cases hc : c ∈ pos
  · obtain ⟨j, hj, rfl⟩ := List.mem_iff_getElem.1 hc
    have hj' := List.getElem?_eq_getElem hj
    have := (e4 pos[j]).2 j hj'
    rw [List.getD, this, Option.getD_some, ent_vector hr]
    by_cases hw : a ≤ r ∧ r < a + k
    · rw [if_pos hw, if_pos ⟨hc, hw⟩, Finset.sum_eq_single j]
      · rw [if_pos (by simp [List.getD, hj])]
      · intro i hi hne
        have hi' := Finset.mem_range.1 hi
        rw [if_neg]
        intro h
        apply hne
        have h' : pos[i] = pos[j] := by simpa [List.getD, hi'] using h
        exact (List.Nodup.getElem_inj_iff hnd).1 h'
      · intro h; exact absurd (Finset.mem_range.2 hj) h
    · rw [if_neg hw, if_neg (fun h => hw h.2)]
  · rw [if_neg (fun h => hc h.1), List.getD, (e4 c).1 hc]; rfl

variable {p : PC α δ} {ms : Evaluable α δ} {labels clabels : List String} {m n : Nat} {N : List Nat}

/-- One sensor of one series in `calc_fJa`: the adjusted measurand is that of the full solver; the columns of its parameters are filled with the entries of the Jacobian
of the full solver, which has zeros in the other columns. -/
theorem pc_sideJa (h : p.asGN.Setup ms labels clabels m N n) (htl : ms.IgnoresTimes labels clabels) (ht : ∀ u ∈ p.hd.mu.unc, u.unc.typeID = 1 ∨ u.unc.typeID = 2)
    {i k s : Nat} {pair : Nat × Nat} (hp : ms.mu.idx.Im[i]? = some pair) (hk : ms.mu.idx.Nm[i]? = some k) (hs : s = pair.1 ∨ s = pair.2) {JB : List α}
    {dR : Nat → Nat → α} (hok : p.asGN.SideOk { N_var := N.sum + n, N_cov := m, n_uS := n } k (i + 1) s JB dR) :
    ∃ (name : String) (R adj : List α) (own : Nat → Bool), ms.mu.idx.sensors[s]? = some name ∧ p.asGN.SideVal ms labels clabels (N.sum + n) n i k s p.xyza R adj ∧
      (∀ c, own c = true → labels[c]? = some name) ∧ (∀ c q, own c = false → q < k → dR q (N.sum + n + c) = 0) ∧
      ∀ (sg : α) (uK : List α) (lo M : Nat) (Ja : List (List α)), uK.length = k → (∀ col ∈ Ja, col.length = M) → Ja.length = labels.length → lo + k ≤ M →
        ∃ Ja', p.sideJa m (lo, lo + k) uK (i + 1) sg s Ja = .ok (adj, Ja') ∧ Ja'.length = labels.length ∧ (∀ col ∈ Ja', col.length = M) ∧
          ∀ c r, r < M → ent (Ja'.getD c []) r = if own c = true ∧ lo ≤ r ∧ r < lo + k then sg * ent JB (r - lo) / ent uK (r - lo) * dR (r - lo) (N.sum + n + c)
            else ent (Ja.getD c []) r := by
  obtain ⟨hs1, hs2⟩ := h.ready.sides i pair hp
  have hside : ms.SideReady labels clabels m (i + 1) s := by rcases hs with rfl | rfl <;> assumption
  obtain ⟨name, q, f, B, hname, hq, hfm, hB, hBs, hq1, hcov, _⟩ := hside
  obtain ⟨name', xt, al, tm, R, JR, B', adj, hname', hxt, hal, htm, hR, hB', hadj, hJBl, hJR⟩ := hok
  have e1 : p.asGN.hd.mu.idx.sensors = ms.mu.idx.sensors := by rw [h.facts.idx]
  have e3 : p.asGN.hd.adjustment_model = ms.adjustment_model := by rw [h.hd]
  have hname2 := hname'
  rw [e1, hname] at hname'; cases hname'
  have hB2 := hB'
  rw [e3, hB] at hB'; cases hB'
  have hRf := ready_calcR h hname hq hfm hcov hk xt al tm
  have hcols : ((List.range q).map fun c => vector k fun r =>
        ∑ j ∈ Finset.range p.asGN.xyza.length, p.asGN.hd.mu.unconvM (N.sum + n) n k (blkOf ms.mu.idx s (i + 1) c) r j * ent p.asGN.xyza j) =
      p.asGN.colsAt (N.sum + n) n k q (blkOf ms.mu.idx s (i + 1)) p.asGN.xyza := by
    have := unconvert_colsAt h hq hcov hk
    rw [ready_unconvert h.ready h.facts hq hcov hk (by rw [h.xlen]; omega)] at this
    exact Except.ok.inj this
  rw [hcols, hR] at hRf
  have hcl : (p.asGN.colsAt (N.sum + n) n k q (blkOf ms.mu.idx s (i + 1)) p.asGN.xyza).length = q := by simp [GN.colsAt]
  have hcc : ∀ col ∈ p.asGN.colsAt (N.sum + n) n k q (blkOf ms.mu.idx s (i + 1)) p.asGN.xyza, col.length = k := fun col hc => by
    unfold GN.colsAt at hc
    obtain ⟨c, _, rfl⟩ := List.mem_map.1 hc
    simp
  have hxd : (p.asGN.xyza.drop (N.sum + n)).length = labels.length := by rw [List.length_drop, h.xlen]; omega
  rw [htl i s q pair name f hp hs hname hq hfm _ _ xt al tm k hcl hcc (labelled_length hxd name)] at hRf
  have hBl := hBs R
  obtain ⟨r', d', hb1, hb2, hb3⟩ := hBl
  rw [hadj] at hb1
  obtain ⟨rfl, rfl⟩ := Prod.mk.inj (Except.ok.inj hb1)
  have hRk : R.length = k := by omega
  have hval : p.asGN.SideVal ms labels clabels (N.sum + n) n i k s p.xyza R adj :=
    ⟨name, q, f, B, JR, JB, hname, hfm, hB, hq1, hcov, hRf.symm, hadj, hRk, by omega⟩
  rw [← PC.calcR_eq ht] at hR
  have hn' : p.hd.mu.idx.sensors[s]? = some name := hname2
  have hcalc : p.calcR s (i + 1) = .ok (R, JR) := by
    unfold PC.calcR
    have h2' : p.hd.mu.getSensorAcrossTrackIndex (i + 1) name = .ok xt := hxt
    have h3' : p.hd.mu.getSensorAlongTrackIndex (i + 1) name = .ok al := hal
    have h4' : p.hd.mu.getSensorTime (i + 1) name = .ok tm := htm
    simp only [pyGet_some hn', h2', h3', h4', hR, bind, Except.bind]
  have h6' : p.hd.adjustment_model[s]? = some B := hB2
  cases JR with
  | none =>
    obtain ⟨ib, uR, ⟨bb, u, hbb, hib, hnb, hu, hun, hul, hle⟩, rfl⟩ := hJR
    refine ⟨name, R, adj, fun _ => false, hname, hval, by simp, ?_, ?_⟩
    · intro c q _ hq
      rw [gather_diag hq, if_neg (by simp only at hle; omega)]
    · intro sg uK lo M Ja _ hJa hJl _
      refine ⟨Ja, ?_, hJl, hJa, fun c r _ => by simp⟩
      unfold PC.sideJa
      simp only [pyGet_some hn', hcalc, pyGet_some h6', hadj, bind, Except.bind, pure, Except.pure]
  | some JR =>
    obtain ⟨labels', blk, hl', hmem, hJl, hJk, hblk, hdRe⟩ := hJR
    have hlab : p.hd.mu.idx.parameter_sensor = some labels := h.labels_eq
    rw [h.labels_eq] at hl'; cases hl'
    simp only at hJl hblk
    have hpl : ∀ T, (paramPositions labels T name).length = labels.count name := fun _ => paramPositions_length
    have hdR0 : ∀ c q, (((List.range m).map fun v => ent (JR.getD v []) q * p.asGN.hd.mu.unconvM (N.sum + n) n k (blk v) q (N.sum + n + c)).sum +
          gatherM (paramPositions labels (N.sum + n) name).length (fun p => (paramPositions labels (N.sum + n) name).getD p 0)
            (fun i p => ent (JR.getD (m + p) []) i) q (N.sum + n + c)) =
        ∑ j ∈ Finset.range (paramPositions labels 0 name).length, if (paramPositions labels 0 name).getD j 0 = c then ent (JR.getD (m + j) []) q else 0 := by
      intro c q
      have hz : ((List.range m).map fun v => ent (JR.getD v []) q * p.asGN.hd.mu.unconvM (N.sum + n) n k (blk v) q (N.sum + n + c)).sum = 0 := by
        rw [list_sum_range]
        apply Finset.sum_eq_zero
        intro v hv
        rw [unconvM_zero (hblk v (Finset.mem_range.1 hv)).2 (by omega) (by omega), mul_zero]
      rw [hz, zero_add]
      unfold gatherM
      rw [hpl, hpl]
      refine sum_congr rfl fun j hj => ?_
      have hj' : j < (paramPositions labels 0 name).length := by rw [hpl]; exact Finset.mem_range.1 hj
      rw [paramPositions_shift labels (N.sum + n)]
      simp [List.getD, hj']
    have hdR : ∀ c q, dR q (N.sum + n + c) =
        ∑ j ∈ Finset.range (paramPositions labels 0 name).length, if (paramPositions labels 0 name).getD j 0 = c then ent (JR.getD (m + j) []) q else 0 := by
      intro c q
      rw [hdRe]
      exact hdR0 c q
    refine ⟨name, R, adj, fun c => decide (c ∈ paramPositions labels 0 name), hname, hval, ?_, ?_, ?_⟩
    · intro c hc
      exact mem_paramPositions.1 (of_decide_eq_true hc)
    · intro c q hc _
      have hc' := of_decide_eq_false hc
      rw [hdR]
      apply Finset.sum_eq_zero
      intro j hj
      rw [if_neg]
      intro he
      apply hc'
      rw [← he]
      have := Finset.mem_range.1 hj
      simp [List.getD, this]
    · intro sg uK lo M Ja hK hJa hJal hle
      have hcols := paramCols_eq (v := JB.map (sg * ·)) (JR := JR) (N_cov := m) (P := (paramPositions labels 0 name).length) (k := k) (by simpa using hJBl)
        (by rw [hJl, hpl, hpl]) hJk
      have hdiv : (vector (paramPositions labels 0 name).length fun p => vector k fun i => ent (JB.map (sg * ·)) i * ent (JR.getD (m + p) []) i).mapM
          (fun c => npZip (· / ·) c uK) = .ok ((vector (paramPositions labels 0 name).length fun p => vector k fun i => ent (JB.map (sg * ·)) i * ent (JR.getD (m + p) []) i).map
            fun c => vector k fun i => ent c i / ent uK i) := by
        refine mapM_ok_of fun c hc => ?_
        obtain ⟨_, _, rfl⟩ := List.mem_map.1 hc
        exact npZip_ent (vector_length _ _) hK
      generalize hA : ((vector (paramPositions labels 0 name).length fun p => vector k fun i => ent (JB.map (sg * ·)) i * ent (JR.getD (m + p) []) i).map
            fun c => vector k fun i => ent c i / ent uK i) = A at hdiv
      obtain ⟨Ja', f1, f2, f3, f4⟩ := setColumns_entry (a := lo) (k := k) (n := M) hle (pos := paramPositions labels 0 name) (M := Ja) (A := A) hJa
        (paramPositions_nodup _ _ _) (by
          intro q hq
          have := mem_paramPositions.1 hq
          rw [hJal]; exact (List.getElem?_eq_some_iff.1 this).1) (by rw [← hA]; simp [vector]) (by
          intro c hc
          rw [← hA] at hc
          obtain ⟨_, _, rfl⟩ := List.mem_map.1 hc
          simp)
      refine ⟨Ja', ?_, by rw [f2, hJal], f3, fun c r hr => ?_⟩
      · unfold PC.sideJa
        simp only [pyGet_some hn', hcalc, pyGet_some h6', hadj, hlab, needKey, hcols, hdiv, f1, bind, Except.bind, pure, Except.pure]
      · rw [f4 c r hr]
        by_cases hw : c ∈ paramPositions labels 0 name ∧ lo ≤ r ∧ r < lo + k
        · rw [if_pos hw, if_pos ⟨decide_eq_true hw.1, hw.2⟩, hdR, Finset.mul_sum]
          refine sum_congr rfl fun j hj => ?_
          have hj' := Finset.mem_range.1 hj
          split
          · have : A.getD j [] = vector k fun i => ent (vector k fun i => ent (JB.map (sg * ·)) i * ent (JR.getD (m + j) []) i) i / ent uK i := by
              rw [← hA]; simp [List.getD, vector, hj']
            rw [this, ent_vector (by omega), ent_vector (by omega), ent_map_mul]
            ring
          · rw [mul_zero]
        · rw [if_neg hw, if_neg]
          rintro ⟨h1, h2⟩
          exact hw ⟨of_decide_eq_true h1, h2⟩

/-- One series in `calc_fJa`. -/
theorem pc_seriesJa {js : List (SeriesJ α)} (h : p.asGN.Setup ms labels clabels m N n)
    (hj : p.asGN.Shaped { N_var := N.sum + n, N_cov := m, n_uS := n } labels ms.mu.idx.Nm.sum js) (htl : ms.IgnoresTimes labels clabels)
    (ht : ∀ u ∈ p.hd.mu.unc, u.unc.typeID = 1 ∨ u.unc.typeID = 2) {i k : Nat} {pair : Nat × Nat} {j : SeriesJ α} (hp : ms.mu.idx.Im[i]? = some pair)
    (hk : ms.mu.idx.Nm[i]? = some k) (hji : js[i]? = some j) :
    j.lo = (ms.mu.idx.Nm.take i).sum ∧ j.k = k ∧ ms.mu.unck.getD i [] = j.uK ∧ j.lo + k ≤ ms.mu.idx.Nm.sum ∧
    ∃ R1 A1 R2 A2, p.asGN.SideVal ms labels clabels (N.sum + n) n i k pair.1 p.xyza R1 A1 ∧ p.asGN.SideVal ms labels clabels (N.sum + n) n i k pair.2 p.xyza R2 A2 ∧
      ∀ st : List α × List (List α), st.1.length = ms.mu.idx.Nm.sum → (∀ col ∈ st.2, col.length = ms.mu.idx.Nm.sum) → st.2.length = labels.length →
        ∃ st', p.seriesJa m st (pair, i) = .ok st' ∧ st'.1.length = ms.mu.idx.Nm.sum ∧ (∀ col ∈ st'.2, col.length = ms.mu.idx.Nm.sum) ∧ st'.2.length = labels.length ∧
          (∀ r, r < ms.mu.idx.Nm.sum → ent st'.1 r = if j.lo ≤ r ∧ r < j.lo + k then (ent A2 (r - j.lo) - ent A1 (r - j.lo)) / ent j.uK (r - j.lo) else ent st.1 r) ∧
          ∀ c r, r < ms.mu.idx.Nm.sum → (j.lo ≤ r ∧ r < j.lo + k → ent (st.2.getD c []) r = 0) → ent (st'.2.getD c []) r = if j.lo ≤ r ∧ r < j.lo + k then
            -1 * ent j.JB1 (r - j.lo) / ent j.uK (r - j.lo) * j.dR1 (r - j.lo) (N.sum + n + c) +
              1 * ent j.JB2 (r - j.lo) / ent j.uK (r - j.lo) * j.dR2 (r - j.lo) (N.sum + n + c) else ent (st.2.getD c []) r := by
  have hIm : p.asGN.hd.mu.idx.Im = ms.mu.idx.Im := by rw [h.facts.idx]
  obtain ⟨c1, c2, c3, c4, c5, o1, o2⟩ := hj.series i pair j (by rw [hIm]; exact hp) hji
  have c1' := c1
  have c2' := c2
  have hi := (List.getElem?_eq_some_iff.1 hk).1
  rw [h.cNm_eq, prefixSums_getElem?_of_le _ (by omega)] at c1 c2
  have e1 := Option.some.inj c1
  have e2 := Option.some.inj c2
  rw [take_succ_sum _ hk] at e2
  have hkk : j.k = k := by omega
  rw [hkk] at o1 o2 c5 c3 c2'
  refine ⟨e1.symm, hkk, ?_, c3, ?_⟩
  · have c4' := c4
    rw [h.facts.unck] at c4'
    simp [List.getD, c4']
  obtain ⟨name1, R1, A1, own1, n1, v1, w1, z1, s1⟩ := pc_sideJa h htl ht hp hk (.inl rfl) o1
  obtain ⟨name2, R2, A2, own2, n2, v2, w2, z2, s2⟩ := pc_sideJa h htl ht hp hk (.inr rfl) o2
  refine ⟨R1, A1, R2, A2, v1, v2, fun st hl hc hL => ?_⟩
  obtain ⟨J1, a1, a2, a3, a4⟩ := s1 (-1) j.uK j.lo ms.mu.idx.Nm.sum st.2 c5 hc hL c3
  obtain ⟨J2, b1, b2, b3, b4⟩ := s2 1 j.uK j.lo ms.mu.idx.Nm.sum J1 c5 a3 a2 c3
  have hA1 : A1.length = k := by obtain ⟨_, _, _, _, _, _, _, _, _, _, _, _, _, _, h⟩ := v1; exact h
  have hA2 : A2.length = k := by obtain ⟨_, _, _, _, _, _, _, _, _, _, _, _, _, _, h⟩ := v2; exact h
  have hd := npZip_ent (f := fun x y : α => x - y) hA2 hA1
  have he := npZip_ent (f := fun x y : α => x / y) (vector_length k fun i => ent A2 i - ent A1 i) c5
  have hset := setSlice_vector (l := st.1) (v := vector k fun i => ent (vector k fun i => ent A2 i - ent A1 i) i / ent j.uK i) (a := j.lo) (k := k) (by simp) (by omega)
  rw [hl] at hset
  generalize hkv : (vector ms.mu.idx.Nm.sum fun r => if j.lo ≤ r ∧ r < j.lo + k then
    ent (vector k fun i => ent (vector k fun i => ent A2 i - ent A1 i) i / ent j.uK i) (r - j.lo) else ent st.1 r) = kv at hset
  refine ⟨(kv, J2), ?_, by rw [← hkv]; simp, b3, b2, ?_, ?_⟩
  · unfold PC.seriesJa
    simp only [pyGet_some (show p.hd.mu.unck[i]? = some j.uK from c4), pyGet_some (show p.hd.mu.idx.cNm[i]? = some j.lo from c1'),
      pyGet_some (show p.hd.mu.idx.cNm[i + 1]? = some (j.lo + k) from c2'), a1, b1, hd, he, hset, bind, Except.bind, pure, Except.pure]
  · intro r hr
    rw [← hkv, ent_vector hr]
    split
    · rw [ent_vector (by omega), ent_vector (by omega)]
    · rfl
  · intro c r hr hz
    simp only
    rw [b4 c r hr, a4 c r hr]
    by_cases hw : j.lo ≤ r ∧ r < j.lo + k
    · have hne : own1 c = true → own2 c = true → False := by
        intro h1 h2
        have := (w1 c h1).symm.trans (w2 c h2)
        have hd := (h.ready.distinct pair (List.mem_of_getElem? hp)).2
        apply hd
        rw [n1, n2]; exact this
      rw [if_pos hw]
      cases h1 : own1 c <;> cases h2 : own2 c
      · rw [z1 c (r - j.lo) h1 (by omega), z2 c (r - j.lo) h2 (by omega), hz hw]; simp
      · rw [z1 c (r - j.lo) h1 (by omega)]; simp [hw]
      · rw [z2 c (r - j.lo) h2 (by omega)]; simp [hw]
      · exact (hne h1 h2).elim
    · simp [hw]

/-- The loop over the series. -/
theorem fold_Ja {f : List α × List (List α) → (Nat × Nat) × Nat → Py (List α × List (List α))} {l : List (Nat × Nat)} {Nm : List Nat} (hl : l.length = Nm.length)
    {V : Nat → Nat → α} {W : Nat → Nat → Nat → α} {M L : Nat}
    (step : ∀ (i k : Nat) (pair : Nat × Nat), l[i]? = some pair → Nm[i]? = some k → ∀ st : List α × List (List α), st.1.length = M → (∀ col ∈ st.2, col.length = M) → st.2.length = L →
        ∃ st', f st (pair, i) = .ok st' ∧ st'.1.length = M ∧ (∀ col ∈ st'.2, col.length = M) ∧ st'.2.length = L ∧
          (∀ r, r < M → ent st'.1 r = if (Nm.take i).sum ≤ r ∧ r < (Nm.take i).sum + k then V i (r - (Nm.take i).sum) else ent st.1 r) ∧
          ∀ c r, r < M → ((Nm.take i).sum ≤ r ∧ r < (Nm.take i).sum + k → ent (st.2.getD c []) r = 0) → ent (st'.2.getD c []) r =
            if (Nm.take i).sum ≤ r ∧ r < (Nm.take i).sum + k then W i c (r - (Nm.take i).sum) else ent (st.2.getD c []) r) :
    ∃ st', l.zipIdx.foldlM f (List.replicate M 0, List.replicate L (List.replicate M 0)) = .ok st' ∧ st'.1.length = M ∧ (∀ col ∈ st'.2, col.length = M) ∧ st'.2.length = L ∧
      (∀ r, r < M → ent st'.1 r = ∑ i ∈ Finset.range Nm.length, if (Nm.take i).sum ≤ r ∧ r < (Nm.take i).sum + Nm.getD i 0 then V i (r - (Nm.take i).sum) else 0) ∧
      ∀ c r, r < M → ent (st'.2.getD c []) r =
        ∑ i ∈ Finset.range Nm.length, if (Nm.take i).sum ≤ r ∧ r < (Nm.take i).sum + Nm.getD i 0 then W i c (r - (Nm.take i).sum) else 0 := by
  have key : ∀ j, j ≤ Nm.length → ∃ st', (l.zipIdx.take j).foldlM f (List.replicate M 0, List.replicate L (List.replicate M 0)) = .ok st' ∧ st'.1.length = M ∧
      (∀ col ∈ st'.2, col.length = M) ∧ st'.2.length = L ∧
      (∀ r, r < M → ent st'.1 r = ∑ i ∈ Finset.range j, if (Nm.take i).sum ≤ r ∧ r < (Nm.take i).sum + Nm.getD i 0 then V i (r - (Nm.take i).sum) else 0) ∧
      ∀ c r, r < M → ent (st'.2.getD c []) r =
        ∑ i ∈ Finset.range j, if (Nm.take i).sum ≤ r ∧ r < (Nm.take i).sum + Nm.getD i 0 then W i c (r - (Nm.take i).sum) else 0 := by
    intro j
    induction j with
    | zero =>
      intro _
      refine ⟨_, rfl, by simp, ?_, by simp, ?_, ?_⟩
      · intro col hc
        rw [(List.mem_replicate.1 hc).2]; simp
      · intro r hr; simp [ent, List.getD, List.getElem?_replicate, hr]
      · intro c r hr
        by_cases hc : c < L
        · simp [ent, List.getD, List.getElem?_replicate, hr, hc]
        · simp [ent, List.getD, List.getElem?_replicate, hc]
    | succ j ih =>
      intro hj
      obtain ⟨st, e1, e2, e3, e4, e5, e6⟩ := ih (by omega)
      have hjl : j < l.length := by omega
      have hjN : j < Nm.length := by omega
      obtain ⟨st', g1, g2, g3, g4, g5, g6⟩ := step j Nm[j] l[j] (List.getElem?_eq_getElem hjl) (List.getElem?_eq_getElem hjN) st e2 e3 e4
      have hgd : Nm.getD j 0 = Nm[j] := by simp [List.getD, hjN]
      have hbefore : ∀ (F : Nat → Nat → α) r, (Nm.take j).sum ≤ r → ∑ i ∈ Finset.range j,
          (if (Nm.take i).sum ≤ r ∧ r < (Nm.take i).sum + Nm.getD i 0 then F i (r - (Nm.take i).sum) else 0) = 0 := by
        intro F r hr
        apply Finset.sum_eq_zero
        intro i hi
        have hi' := Finset.mem_range.1 hi
        rw [if_neg]
        rintro ⟨_, h2⟩
        have h3 := take_sum_le_take_sum Nm (show i + 1 ≤ j by omega)
        rw [take_succ_sum _ (List.getElem?_eq_getElem (show i < Nm.length by omega))] at h3
        have : Nm.getD i 0 = Nm[i]'(by omega) := by simp [List.getD, show i < Nm.length by omega]
        omega
      refine ⟨st', ?_, g2, g3, g4, ?_, ?_⟩
      · rw [List.take_succ_eq_append_getElem (by simpa using hjl), List.foldlM_append, e1]
        simp only [bind, Except.bind, List.foldlM_cons, List.foldlM_nil, List.getElem_zipIdx, Nat.zero_add, g1, pure, Except.pure]
      · intro r hr
        rw [g5 r hr, Finset.sum_range_succ, hgd]
        split
        · rename_i hw
          rw [hbefore (fun i q => V i q) r hw.1, zero_add]
        · rw [e5 r hr, add_zero]
      · intro c r hr
        rw [g6 c r hr (fun hw => by rw [e6 c r hr]; exact hbefore (fun i q => W i c q) r hw.1), Finset.sum_range_succ, hgd]
        split
        · rename_i hw
          rw [hbefore (fun i q => W i c q) r hw.1, zero_add]
        · rw [e6 c r hr, add_zero]
  obtain ⟨st', e⟩ := key Nm.length (Nat.le_refl _)
  rw [← hl, List.take_of_length_le (by simp), hl] at e
  exact ⟨st', e⟩

end
end Verif
