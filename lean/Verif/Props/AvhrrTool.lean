import Verif.Lemmas.AvhrrFile
import Verif.Props.ReaderTotal
/-
Property C75: the AVHRR conversion tool.
-/
set_option autoImplicit false
namespace Verif
variable {α : Type} [Field α] [LinearOrder α] [IsStrictOrderedRing α] [FloorRing α]

/-- The matrix and vectors of the averaged columns of a side. -/
structure AvhrrSide.Mats (s : AvhrrSide α) (ws : List (CSR α)) (us : List (List α)) (times : List α) (k : Nat) (uS uI : List (List α)) (W : CSR α) (pos scan : List Nat) (vS vI : List α) : Prop where
  lines : ScanLines (1 / 2) times pos
  shape : W.Shape
  average : W.RollingAverage pos (List.replicate k (1 / (k : α))) scan
  stored : W.data ≠ [] ∧ 0 < W.ncols ∧ ∀ c, c < W.ncols → c ∈ W.indices
  w : ∃ w, s.wUse[0]? = some w ∧ s.wUse[1]? = some w ∧ 1 ≤ w ∧ ws[w - 1]? = some W
  useS : ∃ u, s.uUse[0]? = some u ∧ 1 ≤ u ∧ us[u - 1]? = some vS
  useI : ∃ u, s.uUse[1]? = some u ∧ 1 ≤ u ∧ us[u - 1]? = some vI
  lengths : vS.length = W.ncols ∧ vI.length = W.ncols
  rowsS : ∀ x ∈ uS, x.length = k
  rowsI : ∀ x ∈ uI, x.length = k
  unc : ∀ u0, (ScanLineUnc uS pos u0 → vS = scan.map u0) ∧ (ScanLineUnc uI pos u0 → vI = scan.map u0)

/-- A column of a file with the matrix of the side. -/
theorem mats_average {W : CSR α} {pos scan : List Nat} {times : List α} {k : Nat} {rows : List (List α)} {v : List α} (hl : ScanLines (1 / 2) times pos) (hsh : W.Shape)
    (hra : W.RollingAverage pos (List.replicate k (1 / (k : α))) scan) (hst : 0 < W.ncols ∧ ∀ c, c < W.ncols → c ∈ W.indices) (hlen : v.length = W.ncols)
    (hu : ∀ u0, ScanLineUnc rows pos u0 → v = scan.map u0) {ws : List (CSR α)} {us : List (List α)} {d : Dataset α} (hM : d.M = times.length)
    (ho : (∀ (k : Nat) (w : CSR α), ws[k]? = some w → ∃ c, c ∈ w.indices ∧ (∀ c' ∈ w.indices, c' ≤ c) ∧ openW d (k + 1) = .ok { w with ncols := c + 1 }) ∧
      (∀ (k : Nat) (u : List α), us[k]? = some u → openU d (k + 1) = .ok u)) {s : Side α} {c : Nat} (hw : 1 ≤ s.wUse c) (hw' : ws[s.wUse c - 1]? = some W) (hu1 : 1 ≤ s.uUse c)
    (hu' : us[s.uUse c - 1]? = some v) : d.AveragesScanLines s c times k rows := by
  obtain ⟨m, hm, hmax, hop⟩ := ho.1 _ _ hw'
  have hop' := ho.2 _ _ hu'
  rw [show s.wUse c - 1 + 1 = s.wUse c by omega] at hop
  rw [show s.uUse c - 1 + 1 = s.uUse c by omega] at hop'
  have e1 := hsh.cols m hm
  have e2 := hmax (W.ncols - 1) (hst.2 _ (by omega))
  have e3 : m + 1 = W.ncols := by omega
  refine ⟨W, v, pos, scan, by rw [hop, e3], hop', hsh, ?_, hlen, hl, hra, hu⟩
  rw [hra.rows, hl.length, hM]

/-- The structured side of a file written with matrices. -/
theorem mats_structured {sd : AvhrrSide α} {ws : List (CSR α)} {us : List (List α)} {times : List α} {k : Nat} {uS uI : List (List α)} {W : CSR α} {pos scan : List Nat} {vS vI : List α}
    (h : sd.Mats ws us times k uS uI W pos scan vS vI) {sys : Bool} (ht : sd.utype = if sys then [3, 3, 1, 2, 2] else [3, 3, 1, 1, 1]) {Ur Us : Nat → Nat → α}
    {d : Dataset α} (hM : d.M = times.length)
    (ho : (∀ (k : Nat) (w : CSR α), ws[k]? = some w → ∃ c, c ∈ w.indices ∧ (∀ c' ∈ w.indices, c' ≤ c) ∧ openW d (k + 1) = .ok { w with ncols := c + 1 }) ∧
      (∀ (k : Nat) (u : List α), us[k]? = some u → openU d (k + 1) = .ok u)) (huse : d.hasUse = true) {nm : String} {m : Nat} (hm5 : m ≤ 5) {s : Side α} (hsm : s.m = m)
    (est : s.utype = fun i => (sd.cutTo nm m).utype.getD i 0) (esw : s.wUse = fun i => (sd.cutTo nm m).wUse.getD i 0) (esu : s.uUse = fun i => (sd.cutTo nm m).uUse.getD i 0)
    (hUr : ∀ i, i < d.M → ∀ c, c < m → s.Ur i c = if c < 2 then 0 else Ur i c) (hUs : ∀ i, i < d.M → ∀ c, c < m → 3 ≤ c → s.Us i c = if sys then Us i c else 0) (h3 : 3 ≤ m) :
    d.Structured s sys Ur Us times k uS uI ∧ ∀ c, c < s.m → d.ReadableColumn s c := by
  have tk : ∀ (l : List Nat) (c x : Nat), l[c]? = some x → c < m → (l.take m).getD c 0 = x := by
    intro l c x hx hc
    rw [List.getD_eq_getElem?_getD, List.getElem?_take, if_pos hc, hx]; rfl
  obtain ⟨w, hw0, hw1, hw, hW⟩ := h.w
  obtain ⟨a, ha0, ha, hvS⟩ := h.useS
  obtain ⟨b, hb0, hb, hvI⟩ := h.useI
  have ew0 : s.wUse 0 = w := by rw [esw]; exact tk _ _ _ hw0 (by omega)
  have ew1 : s.wUse 1 = w := by rw [esw]; exact tk _ _ _ hw1 (by omega)
  have eu0 : s.uUse 0 = a := by rw [esu]; exact tk _ _ _ ha0 (by omega)
  have eu1 : s.uUse 1 = b := by rw [esu]; exact tk _ _ _ hb0 (by omega)
  have et : ∀ c x, sd.utype[c]? = some x → c < m → s.utype c = x := by
    intro c x hx hc; rw [est]; exact tk _ _ _ hx hc
  have t0 : sd.utype[0]? = some 3 := by rw [ht]; cases sys <;> rfl
  have t1 : sd.utype[1]? = some 3 := by rw [ht]; cases sys <;> rfl
  have t2 : sd.utype[2]? = some 1 := by rw [ht]; cases sys <;> rfl
  have t34 : ∀ c, 3 ≤ c → c < 5 → sd.utype[c]? = some (if sys then 2 else 1) := by
    intro c h1 h2
    have : c = 3 ∨ c = 4 := by omega
    rw [ht]
    rcases this with rfl | rfl <;> cases sys <;> rfl
  have a0 : d.AveragesScanLines s 0 times k uS :=
    mats_average h.lines h.shape h.average h.stored.2 h.lengths.1 (fun u0 => (h.unc u0).1) hM ho (by rw [ew0]; exact hw) (by rw [ew0]; exact hW) (by rw [eu0]; exact ha) (by rw [eu0]; exact hvS)
  have a1 : d.AveragesScanLines s 1 times k uI :=
    mats_average h.lines h.shape h.average h.stored.2 h.lengths.2 (fun u0 => (h.unc u0).2) hM ho (by rw [ew1]; exact hw) (by rw [ew1]; exact hW) (by rw [eu1]; exact hb) (by rw [eu1]; exact hvI)
  refine ⟨⟨⟨et 0 3 t0 (by omega), a0, fun i hi => hUr i hi 0 (by omega)⟩, ⟨et 1 3 t1 (by omega), a1, fun i hi => hUr i hi 1 (by omega)⟩, ⟨et 2 1 t2 (by omega), fun i hi => hUr i hi 2 (by omega)⟩, ?_⟩, ?_⟩
  · intro c hc1 hc2
    rw [hsm] at hc2
    refine ⟨et c _ (t34 c hc1 (by omega)) (by omega), fun i hi => ⟨?_, hUs i hi c hc2 hc1⟩⟩
    rw [hUr i hi c hc2, if_neg (by omega)]
  · intro c hc
    rw [hsm] at hc
    have rd : ∀ c, s.utype c = 3 → (∃ rows, d.AveragesScanLines s c times k rows) → s.wUse c ≠ 0 → s.uUse c ≠ 0 → d.ReadableColumn s c := by
      rintro c h3 ⟨_, W, U, _, _, h1, h2, _⟩ h4 h5
      exact .inr (.inr ⟨.inl h3, huse, h4, h5, ⟨W, h1⟩, ⟨U, h2⟩⟩)
    by_cases c0 : c = 0
    · subst c0; exact rd 0 (et 0 3 t0 (by omega)) ⟨_, a0⟩ (by omega) (by omega)
    by_cases c1 : c = 1
    · subst c1; exact rd 1 (et 1 3 t1 (by omega)) ⟨_, a1⟩ (by omega) (by omega)
    by_cases c2 : c = 2
    · subst c2; exact .inl (et 2 1 t2 (by omega))
    have := et c _ (t34 c (by omega) (by omega)) (by omega)
    cases sys
    · exact .inl (by simpa using this)
    · exact .inr (.inl (by simpa using this))

/-- The side with combined uncertainties. -/
theorem mats_combined {sd : AvhrrSide α} {ws : List (CSR α)} {us : List (List α)} {times : List α} {k : Nat} {uS uI : List (List α)} {W : CSR α} {pos scan : List Nat} {vS vI : List α}
    (h : sd.Mats ws us times k uS uI W pos scan vS vI) (ht : sd.utype = [3, 3, 1, 1, 1]) (hn : sd.Ur.nrows = times.length) :
    ∃ x0 x1, csrDot W vS = .ok x0 ∧ csrDot W vI = .ok x1 ∧ sd.combined ws us = .ok { sd with
      Ur := ⟨sd.Ur.nrows, sd.Ur.ncols, fun r j => if j = 1 then x1.getD r 0 else if j = 0 then x0.getD r 0 else sd.Ur.val r j⟩
      utype := [1, 1, 1, 1, 1] } := by
  obtain ⟨w, hw0, hw1, hw, hW⟩ := h.w
  obtain ⟨a, ha0, ha, hvS⟩ := h.useS
  obtain ⟨b, hb0, hb, hvI⟩ := h.useI
  have d0 := csrDot_vector (w := W) (v := vS) h.shape h.lengths.1
  have d1 := csrDot_vector (w := W) (v := vI) h.shape h.lengths.2
  have l0 : ∀ f : Nat → α, (vector W.nrows f).length = sd.Ur.nrows := by
    intro f; rw [vector_length, h.average.rows, h.lines.length, hn]
  generalize hx0 : (vector W.nrows fun i => ∑ c ∈ Finset.range W.ncols, W.dense i c * ent vS c) = x0 at d0
  generalize hx1 : (vector W.nrows fun i => ∑ c ∈ Finset.range W.ncols, W.dense i c * ent vI c) = x1 at d1
  refine ⟨x0, x1, d0, d1, ?_⟩
  have g : ∀ {β : Type} {l : List β} {i : Nat} {x : β}, l[i]? = some x → pyGet l i = .ok x := by
    intro β l i x hx; unfold pyGet; rw [hx]
  have c0 : combineColumn sd ws us sd.Ur (3, 0) = .ok { sd.Ur with val := fun r j => if j = 0 then x0.getD r 0 else sd.Ur.val r j } := by
    unfold combineColumn
    rw [if_pos rfl, getD_of hw0, getD_of ha0, g hW, g hvS]
    simp only [bind, Except.bind, d0]
    rw [if_pos (by rw [← hx0]; exact l0 _)]
    rfl
  have c1 : ∀ A : Arr α, A.nrows = sd.Ur.nrows → combineColumn sd ws us A (3, 1) = .ok { A with val := fun r j => if j = 1 then x1.getD r 0 else A.val r j } := by
    intro A hA
    unfold combineColumn
    rw [if_pos rfl, getD_of hw1, getD_of hb0, g hW, g hvI]
    simp only [bind, Except.bind, d1]
    rw [if_pos (by rw [← hx1, hA]; exact l0 _)]
    rfl
  unfold AvhrrSide.combined
  rw [ht]
  have hf : ([3, 3, 1, 1, 1] : List Nat).zipIdx.foldlM (combineColumn sd ws us) sd.Ur =
      .ok ⟨sd.Ur.nrows, sd.Ur.ncols, fun r j => if j = 1 then x1.getD r 0 else if j = 0 then x0.getD r 0 else sd.Ur.val r j⟩ := by
    show List.foldlM (combineColumn sd ws us) sd.Ur [(3, 0), (3, 1), (1, 2), (1, 3), (1, 4)] = _
    rw [List.foldlM_cons, c0]
    show List.foldlM (combineColumn sd ws us) _ [(3, 1), (1, 2), (1, 3), (1, 4)] = _
    rw [List.foldlM_cons, c1 ⟨sd.Ur.nrows, sd.Ur.ncols, fun r j => if j = 0 then x0.getD r 0 else sd.Ur.val r j⟩ rfl]
    rfl
  rw [hf]
  rfl

/-- The uncertainties given for the kept match-ups, columns from `lo`. -/
def givenUnc (kept : List Nat) (u : Nat → Nat → α) (lo : Nat) : Nat → Nat → α := fun i c => u (kept.getD i 0) (lo + c)

/-- One file with matrices. -/
theorem fileW {st : AvhrrState α} {raw : AvhrrRaw α} {kept : List Nat} {vars : List (String × List α)} {n1 n2 band : String} {p k1 k2 : Nat} (hu : raw.Usable n1 n2 band k1 k2)
    (hk : ∀ r ∈ kept, r < raw.M) (hv0 : lookupVar vars "original_indices" = some ((List.range raw.M).map fun (i : Nat) => (i : α)))
    (hv : ∀ e ∈ avhrrRenamed, e.1 ≠ "original_indices" → lookupVar vars e.1 = lookupVar raw.vars (rawName band e.1)) (hS : st.Shaped n1 n2 kept.length p) (hF : st.From raw kept vars p)
    {ws : List (CSR α)} {us : List (List α)} (hw : ws ≠ []) (hwf : ∀ w ∈ ws, w.WellFormed ∧ w.nrows = kept.length ∧ w.data ≠ []) (hu1 : st.s1.UsesOk ws.length us.length)
    (hu2 : st.s2.UsesOk ws.length us.length) {sys : Bool} {W1 W2 : CSR α} {pos1 pos2 scan1 scan2 : List Nat} {vS1 vI1 vS2 vI2 : List α}
    (M2 : st.s2.Mats ws us (takeVec kept raw.time2) k2 (takeScan kept raw.uS2) (takeScan kept raw.uI2) W2 pos2 scan2 vS2 vI2)
    (t2 : st.s2.utype = if sys then [3, 3, 1, 2, 2] else [3, 3, 1, 1, 1])
    (U2 : ∀ i c, c < 5 → st.s2.Ur.val i c = if c < 2 then 0 else givenUnc kept raw.Ur 5 i c) (V2 : ∀ i c, c < 5 → 3 ≤ c → st.s2.Us.val i c = if sys then givenUnc kept raw.Us 5 i c else 0)
    (R1 : raw.refFirst = true → p = 1 ∧ st.s1.utype = [1] ∧ ∀ i, st.s1.Ur.val i 0 = givenUnc kept raw.Ur 0 i 0)
    (N1 : raw.refFirst = false → p = 5 ∧ st.s1.Mats ws us (takeVec kept raw.time1) k1 (takeScan kept raw.uS1) (takeScan kept raw.uI1) W1 pos1 scan1 vS1 vI1 ∧
      (st.s1.utype = if sys then [3, 3, 1, 2, 2] else [3, 3, 1, 1, 1]) ∧ (∀ i c, c < 5 → st.s1.Ur.val i c = if c < 2 then 0 else givenUnc kept raw.Ur 0 i c) ∧
      ∀ i c, c < 5 → 3 ≤ c → st.s1.Us.val i c = if sys then givenUnc kept raw.Us 0 i c else 0)
    {m1 m2 : Nat} (hm2 : m2 = 4 ∨ m2 = 5) (hm1 : m1 = if raw.refFirst then 1 else m2) :
    ∃ D, st.writeW ws us m1 m2 = .ok D ∧ D.AvhrrFile raw kept n1 n2 band m1 m2 ∧
      D.Structured D.s2 sys (givenUnc kept raw.Ur 5) (givenUnc kept raw.Us 5) (takeVec kept raw.time2) k2 (takeScan kept raw.uS2) (takeScan kept raw.uI2) ∧
      (raw.refFirst = true → D.ReferenceSide D.s1 (givenUnc kept raw.Ur 0)) ∧
      (raw.refFirst = false → D.Structured D.s1 sys (givenUnc kept raw.Ur 0) (givenUnc kept raw.Us 0) (takeVec kept raw.time1) k1 (takeScan kept raw.uS1) (takeScan kept raw.uI1)) ∧
      ∀ s, s = D.s1 ∨ s = D.s2 → ∀ c, c < s.m → D.ReadableColumn s c := by
  have hp : m1 ≤ p ∧ (m1 = 4 → p = 5) := by
    cases hr : raw.refFirst
    · have := (N1 hr).1
      rw [hr] at hm1
      simp only [Bool.false_eq_true, if_false] at hm1
      omega
    · have := (R1 hr).1
      rw [hr] at hm1
      simp only [if_true] at hm1
      omega
  have hm2' : m2 ≤ 5 := by omega
  have hfm := hS.fitsMatrices hp.1 hm2' hw hwf hu1 hu2 (us := us)
  obtain ⟨v, hwr, ho⟩ := writeWithMatrices_ok hfm
  have hcom := hF.file hS hu hk hv0 hv hp.1 hm2' hp.2
  generalize hD : (st.toFile n1 n2 m1 m2).withMatrices v = D at hwr
  have hDM : D.M = kept.length := by rw [← hD]; exact hS.s1.X.1
  have hlen : ∀ f : Nat → α, (takeVec kept f).length = kept.length := fun f => by simp [takeVec]
  have hoD : (∀ (k : Nat) (w : CSR α), ws[k]? = some w → ∃ c, c ∈ w.indices ∧ (∀ c' ∈ w.indices, c' ≤ c) ∧ openW D (k + 1) = .ok { w with ncols := c + 1 }) ∧
      (∀ (k : Nat) (u : List α), us[k]? = some u → openU D (k + 1) = .ok u) := by rw [← hD]; exact ho _
  have S2 : D.s2.m = m2 ∧ (D.s2.utype = fun i => (st.s2.cutTo n2 m2).utype.getD i 0) ∧ (D.s2.wUse = fun i => (st.s2.cutTo n2 m2).wUse.getD i 0) ∧
      (D.s2.uUse = fun i => (st.s2.cutTo n2 m2).uUse.getD i 0) ∧ D.s2.Ur = st.s2.Ur.val ∧ D.s2.Us = st.s2.Us.val := by
    rw [← hD]; exact ⟨(hS.s2.fits hm2').2.1, rfl, rfl, rfl, rfl, rfl⟩
  have S1 : D.s1.m = m1 ∧ (D.s1.utype = fun i => (st.s1.cutTo n1 m1).utype.getD i 0) ∧ (D.s1.wUse = fun i => (st.s1.cutTo n1 m1).wUse.getD i 0) ∧
      (D.s1.uUse = fun i => (st.s1.cutTo n1 m1).uUse.getD i 0) ∧ D.s1.Ur = st.s1.Ur.val ∧ D.s1.Us = st.s1.Us.val := by
    rw [← hD]; exact ⟨(hS.s1.fits hp.1).2.1, rfl, rfl, rfl, rfl, rfl⟩
  have huse : D.hasUse = true := by rw [← hD]; rfl
  have hfile : D.AvhrrFile raw kept n1 n2 band m1 m2 := by
    rw [← hD]
    exact ⟨hcom.M, hcom.names, hcom.covariates, hcom.X1, hcom.X2, hcom.K, hcom.time, hcom.additional⟩
  obtain ⟨a1, a2, a3, a4, a5, a6⟩ := S2
  obtain ⟨b1, b2, b3, b4, b5, b6⟩ := S1
  obtain ⟨r1, r2⟩ := mats_structured M2 t2 (d := D) (Ur := givenUnc kept raw.Ur 5) (Us := givenUnc kept raw.Us 5) (by rw [hDM, hlen]) hoD huse hm2' a1 a2 a3 a4
    (fun i _ c hc => by rw [a5]; exact U2 i c (by omega)) (fun i _ c hc h3 => by rw [a6]; exact V2 i c (by omega) h3) (by omega)
  have hrefr : raw.refFirst = true → D.s1.utype 0 = 1 ∧ D.s1.m = 1 := by
    intro hr
    obtain ⟨e1, e2, e3⟩ := R1 hr
    have e4 : m1 = 1 := by rw [hm1, hr]; rfl
    refine ⟨?_, by rw [b1, e4]⟩
    rw [b2, e4]
    show (st.s1.utype.take 1).getD 0 0 = 1
    rw [e2]; rfl
  have hstr : raw.refFirst = false → D.Structured D.s1 sys (givenUnc kept raw.Ur 0) (givenUnc kept raw.Us 0) (takeVec kept raw.time1) k1 (takeScan kept raw.uS1) (takeScan kept raw.uI1) ∧
      ∀ c, c < D.s1.m → D.ReadableColumn D.s1 c := by
    intro hr
    obtain ⟨e1, M1, t1, U1, V1⟩ := N1 hr
    have e4 : m1 = m2 := by rw [hm1, hr]; rfl
    exact mats_structured M1 t1 (d := D) (by rw [hDM, hlen]) hoD huse (by omega) b1 b2 b3 b4
      (fun i _ c hc => by rw [b5]; exact U1 i c (by omega)) (fun i _ c hc h3 => by rw [b6]; exact V1 i c (by omega) h3) (by omega)
  refine ⟨D, bind_ok.2 ⟨_, hS.arrays m1 m2, hwr⟩, hfile, r1, fun hr => ⟨(hrefr hr).1, fun i _ => by rw [b5]; exact (R1 hr).2.2 i⟩, fun hr => (hstr hr).1, ?_⟩
  rintro s (rfl | rfl) c hc
  · cases hr : raw.refFirst
    · exact (hstr hr).2 c hc
    · rw [(hrefr hr).2] at hc
      have : c = 0 := by omega
      rw [this]
      exact .inl (hrefr hr).1
  · exact r2 c hc

/-- One file without matrices. -/
theorem filePlain {st : AvhrrState α} {raw : AvhrrRaw α} {kept : List Nat} {vars : List (String × List α)} {n1 n2 band : String} {p k1 k2 : Nat} (hu : raw.Usable n1 n2 band k1 k2)
    (hk : ∀ r ∈ kept, r < raw.M) (hv0 : lookupVar vars "original_indices" = some ((List.range raw.M).map fun (i : Nat) => (i : α)))
    (hv : ∀ e ∈ avhrrRenamed, e.1 ≠ "original_indices" → lookupVar vars e.1 = lookupVar raw.vars (rawName band e.1)) (hS : st.Shaped n1 n2 kept.length p) (hF : st.From raw kept vars p)
    (h1 : ∀ t ∈ st.s1.utype, t = 1) (h2 : ∀ t ∈ st.s2.utype, t = 1) {m1 m2 : Nat} (hm1 : m1 ≤ p) (hm2 : m2 ≤ 5) (h4 : m1 = 4 → p = 5) :
    ∃ D, st.writePlain m1 m2 = .ok D ∧ D.AvhrrFile raw kept n1 n2 band m1 m2 ∧ (∀ c, c < D.s1.m → D.s1.utype c = 1) ∧ (∀ c, c < D.s2.m → D.s2.utype c = 1) ∧
      D.s1.Ur = st.s1.Ur.val ∧ D.s2.Ur = st.s2.Ur.val := by
  have hcom := hF.file hS hu hk hv0 hv hm1 hm2 h4
  have key : ∀ (l : List Nat) (m c q : Nat), (∀ t ∈ l, t = 1) → l.length = q → m ≤ q → c < m → (l.take m).getD c 0 = 1 := by
    intro l m c q hl hlen hm hc
    rw [List.getD_eq_getElem?_getD, List.getElem?_take, if_pos hc, List.getElem?_eq_getElem (by omega)]
    exact hl _ (List.getElem_mem _)
  refine ⟨_, bind_ok.2 ⟨_, hS.arrays m1 m2, writeInputFile_ok (hS.fits hm1 hm2).1⟩, hcom, fun c hc => ?_, fun c hc => ?_, rfl, rfl⟩
  · rw [hcom.covariates.1] at hc
    exact key _ _ _ p h1 hS.s1.lists.1 hm1 hc
  · rw [hcom.covariates.2] at hc
    exact key _ _ _ 5 h2 hS.s2.lists.1 hm2 hc

omit [LinearOrder α] [IsStrictOrderedRing α] [FloorRing α] in
theorem noSystematic_uses {s : AvhrrSide α} {nw nu : Nat} (h : s.UsesOk nw nu) : s.noSystematic.UsesOk nw nu := by
  intro c t w u ht hw hu
  have ht : (s.utype.take 3 ++ (s.utype.drop 3).map fun _ => 1)[c]? = some t := ht
  rw [List.getElem?_append] at ht
  split at ht
  · rw [List.getElem?_take] at ht
    split at ht
    · exact h c t w u ht hw hu
    · exact absurd ht (by simp)
  · obtain ⟨_, _, rfl⟩ := Option.map_eq_some_iff.1 ((List.getElem?_map ..).symm.trans ht)
    exact .inl rfl

omit [LinearOrder α] [IsStrictOrderedRing α] [FloorRing α] in
theorem noSystematic_shaped {s : AvhrrSide α} {nm : String} {n p : Nat} (h : s.Shaped nm n p) : s.noSystematic.Shaped nm n p := by
  refine ⟨h.name, h.X, h.Ur, h.Us, ?_, h.lists.2⟩
  show (s.utype.take 3 ++ (s.utype.drop 3).map fun _ => 1).length = p
  rw [← h.lists.1]; simp
  omega

theorem noSystematic_mats {s : AvhrrSide α} {ws : List (CSR α)} {us : List (List α)} {times : List α} {k : Nat} {uS uI : List (List α)} {W : CSR α} {pos scan : List Nat} {vS vI : List α}
    (h : s.Mats ws us times k uS uI W pos scan vS vI) : s.noSystematic.Mats ws us times k uS uI W pos scan vS vI :=
  ⟨h.lines, h.shape, h.average, h.stored, h.w, h.useS, h.useI, h.lengths, h.rowsS, h.rowsI, h.unc⟩

/-- The uncertainties of the averaged columns in the files without structured effects. -/
theorem combined_side {sd : AvhrrSide α} {ws : List (CSR α)} {us : List (List α)} {times : List α} {k : Nat} {uS uI : List (List α)} {W : CSR α} {pos scan : List Nat} {vS vI : List α}
    (h : sd.Mats ws us times k uS uI W pos scan vS vI) (ht : sd.utype = [3, 3, 1, 1, 1]) (hn : sd.Ur.nrows = times.length) {nm : String} (hs : sd.Shaped nm times.length 5) :
    ∃ sd', sd.combined ws us = .ok sd' ∧ sd'.Shaped nm times.length 5 ∧ sd'.X = sd.X ∧ (∀ t ∈ sd'.utype, t = 1) ∧
      ∀ (D : Dataset α) (s : Side α) (Ur : Nat → Nat → α), D.M = times.length → s.Ur = sd'.Ur.val → (∀ c, c < s.m → s.utype c = 1) → s.m ≤ 5 →
        (∀ i c, 2 ≤ c → c < 5 → sd.Ur.val i c = Ur i c) → D.Combined s Ur times k uS uI := by
  obtain ⟨x0, x1, d0, d1, hc⟩ := mats_combined h ht hn
  refine ⟨_, hc, ⟨hs.name, hs.X, ⟨hn, hs.Ur.2⟩, hs.Us, rfl, hs.lists.2⟩, rfl, by simp, ?_⟩
  intro D s Ur hM hUr hty hm hrest
  refine ⟨hty, ⟨pos, h.lines, ?_⟩, ?_⟩
  · intro rows c hrc u0 hu0 i row hi hr
    have hpl : i < pos.length := by rw [h.lines.length, ← hM]; exact hi
    rw [hUr]
    rcases hrc with ⟨rfl, rfl⟩ | ⟨rfl, rfl⟩
    · have e := (h.unc u0).1 hu0
      obtain ⟨x, hx, _, hv⟩ := rolling_dot h.shape h.average h.rowsS hu0
      rw [← e, d0] at hx
      obtain rfl := Except.ok.inj hx
      exact hv i row hr hpl
    · have e := (h.unc u0).2 hu0
      obtain ⟨x, hx, _, hv⟩ := rolling_dot h.shape h.average h.rowsI hu0
      rw [← e, d1] at hx
      obtain rfl := Except.ok.inj hx
      exact hv i row hr hpl
  · intro c hc hcm i _
    rw [hUr]
    show (if c = 1 then _ else if c = 0 then _ else sd.Ur.val i c) = _
    rw [if_neg (by omega), if_neg (by omega)]
    exact hrest i c hc (by omega)

/-- What the six files hold about uncertainties: `a` and `b` with systematic effects, `c` and `d` without, `e` and `f` with random uncertainties only. -/
structure AvhrrUncertainties (raw : AvhrrRaw α) (kept : List Nat) (k1 k2 : Nat) (a b c d e f : Dataset α) : Prop where
  second : ∀ D ∈ [(a, true), (b, true), (c, false), (d, false)],
    D.1.Structured D.1.s2 D.2 (givenUnc kept raw.Ur 5) (givenUnc kept raw.Us 5) (takeVec kept raw.time2) k2 (takeScan kept raw.uS2) (takeScan kept raw.uI2)
  first : raw.refFirst = false → ∀ D ∈ [(a, true), (b, true), (c, false), (d, false)],
    D.1.Structured D.1.s1 D.2 (givenUnc kept raw.Ur 0) (givenUnc kept raw.Us 0) (takeVec kept raw.time1) k1 (takeScan kept raw.uS1) (takeScan kept raw.uI1)
  reference : raw.refFirst = true → ∀ D ∈ [a, b, c, d, e, f], D.ReferenceSide D.s1 (givenUnc kept raw.Ur 0)
  combined2 : ∀ D ∈ [e, f], D.Combined D.s2 (givenUnc kept raw.Ur 5) (takeVec kept raw.time2) k2 (takeScan kept raw.uS2) (takeScan kept raw.uI2)
  combined1 : raw.refFirst = false → ∀ D ∈ [e, f], D.Combined D.s1 (givenUnc kept raw.Ur 0) (takeVec kept raw.time1) k1 (takeScan kept raw.uS1) (takeScan kept raw.uI1)

/-- The six files, from the state. -/
theorem sixFiles {st : AvhrrState α} {raw : AvhrrRaw α} {kept : List Nat} {vars : List (String × List α)} {n1 n2 band : String} {p k1 k2 : Nat} (hu : raw.Usable n1 n2 band k1 k2)
    (hk : ∀ r ∈ kept, r < raw.M) (hv0 : lookupVar vars "original_indices" = some ((List.range raw.M).map fun (i : Nat) => (i : α)))
    (hv : ∀ e ∈ avhrrRenamed, e.1 ≠ "original_indices" → lookupVar vars e.1 = lookupVar raw.vars (rawName band e.1)) (hS : st.Shaped n1 n2 kept.length p) (hF : st.From raw kept vars p)
    {ws : List (CSR α)} {us : List (List α)} (hw : ws ≠ []) (hwf : ∀ w ∈ ws, w.WellFormed ∧ w.nrows = kept.length ∧ w.data ≠ []) (hu1 : st.s1.UsesOk ws.length us.length)
    (hu2 : st.s2.UsesOk ws.length us.length) {W1 W2 : CSR α} {pos1 pos2 scan1 scan2 : List Nat} {vS1 vI1 vS2 vI2 : List α}
    (M2 : st.s2.Mats ws us (takeVec kept raw.time2) k2 (takeScan kept raw.uS2) (takeScan kept raw.uI2) W2 pos2 scan2 vS2 vI2)
    (t2 : st.s2.utype = [3, 3, 1, 2, 2])
    (U2 : ∀ i c, c < 5 → st.s2.Ur.val i c = if c < 2 then 0 else givenUnc kept raw.Ur 5 i c) (V2 : ∀ i c, c < 5 → 3 ≤ c → st.s2.Us.val i c = givenUnc kept raw.Us 5 i c)
    (R1 : raw.refFirst = true → p = 1 ∧ st.s1.utype = [1] ∧ ∀ i, st.s1.Ur.val i 0 = givenUnc kept raw.Ur 0 i 0)
    (N1 : raw.refFirst = false → p = 5 ∧ st.s1.Mats ws us (takeVec kept raw.time1) k1 (takeScan kept raw.uS1) (takeScan kept raw.uI1) W1 pos1 scan1 vS1 vI1 ∧
      st.s1.utype = [3, 3, 1, 2, 2] ∧ (∀ i c, c < 5 → st.s1.Ur.val i c = if c < 2 then 0 else givenUnc kept raw.Ur 0 i c) ∧
      ∀ i c, c < 5 → 3 ≤ c → st.s1.Us.val i c = givenUnc kept raw.Us 0 i c)
    {st' : AvhrrState α} (hst' : st' = { st with s1 := st.s1.noSystematic, s2 := st.s2.noSystematic }) {q1 q2 : Nat} (hq1 : q1 = if raw.refFirst then 1 else 4) (hq2 : q2 = if raw.refFirst then 1 else 5) :
    ∃ a b c d s1 s2 e f, st.writeW ws us q1 4 = .ok a ∧ st.writeW ws us q2 5 = .ok b ∧ st'.writeW ws us q1 4 = .ok c ∧ st'.writeW ws us q2 5 = .ok d ∧
      st'.s1.combined ws us = .ok s1 ∧ st'.s2.combined ws us = .ok s2 ∧ AvhrrState.writePlain { st' with s1 := s1, s2 := s2 } q1 4 = .ok e ∧
      AvhrrState.writePlain { st' with s1 := s1, s2 := s2 } q2 5 = .ok f ∧
      (∀ D ∈ [a, c, e], D.AvhrrFile raw kept n1 n2 band q1 4) ∧ (∀ D ∈ [b, d, f], D.AvhrrFile raw kept n1 n2 band q2 5) ∧ AvhrrUncertainties raw kept k1 k2 a b c d e f ∧
      ∀ D ∈ [a, b, c, d, e, f], ∀ s, s = D.s1 ∨ s = D.s2 → ∀ c, c < s.m → D.ReadableColumn s c := by
  have hS' : st'.Shaped n1 n2 kept.length p := by
    rw [hst']
    exact ⟨noSystematic_shaped hS.s1, noSystematic_shaped hS.s2, hS.K, hS.time, hS.additional⟩
  have hF' : st'.From raw kept vars p := by
    rw [hst']
    exact ⟨hF.X1, hF.X2, hF.K, hF.Kr, hF.Ks, hF.time1, hF.time2, hF.additional⟩
  have e1 : st'.s1 = st.s1.noSystematic := by rw [hst']
  have e2 : st'.s2 = st.s2.noSystematic := by rw [hst']
  have t2' : st'.s2.utype = [3, 3, 1, 1, 1] := by
    rw [e2]; show st.s2.utype.take 3 ++ (st.s2.utype.drop 3).map (fun _ => 1) = _; rw [t2]; rfl
  have R1' : raw.refFirst = true → p = 1 ∧ st'.s1.utype = [1] ∧ ∀ i, st'.s1.Ur.val i 0 = givenUnc kept raw.Ur 0 i 0 := by
    intro hr
    obtain ⟨x, y, z⟩ := R1 hr
    refine ⟨x, ?_, by rw [e1]; exact z⟩
    rw [e1]; show st.s1.utype.take 3 ++ (st.s1.utype.drop 3).map (fun _ => 1) = _; rw [y]; rfl
  have N1' : raw.refFirst = false → p = 5 ∧ st'.s1.Mats ws us (takeVec kept raw.time1) k1 (takeScan kept raw.uS1) (takeScan kept raw.uI1) W1 pos1 scan1 vS1 vI1 ∧
      st'.s1.utype = [3, 3, 1, 1, 1] ∧ (∀ i c, c < 5 → st'.s1.Ur.val i c = if c < 2 then 0 else givenUnc kept raw.Ur 0 i c) ∧
      ∀ i c, c < 5 → 3 ≤ c → st'.s1.Us.val i c = 0 := by
    intro hr
    obtain ⟨x, y, z, z1, z2⟩ := N1 hr
    refine ⟨x, by rw [e1]; exact noSystematic_mats y, ?_, by rw [e1]; exact z1, by rw [e1]; intros; rfl⟩
    rw [e1]; show st.s1.utype.take 3 ++ (st.s1.utype.drop 3).map (fun _ => 1) = _; rw [z]; rfl
  have M2' : st'.s2.Mats ws us (takeVec kept raw.time2) k2 (takeScan kept raw.uS2) (takeScan kept raw.uI2) W2 pos2 scan2 vS2 vI2 := by rw [e2]; exact noSystematic_mats M2
  have U2' : ∀ i c, c < 5 → st'.s2.Ur.val i c = if c < 2 then 0 else givenUnc kept raw.Ur 5 i c := by rw [e2]; exact U2
  have fw : ∀ (q : Nat × Nat), (q = (q1, 4) ∨ q = (q2, 5)) → _ := fun q hq =>
    fileW hu hk hv0 hv hS hF hw hwf hu1 hu2 (sys := true) M2 t2 U2 V2 R1 (W1 := W1) (pos1 := pos1) (scan1 := scan1) (vS1 := vS1) (vI1 := vI1) N1 (m1 := q.1) (m2 := q.2)
      (by rcases hq with rfl | rfl <;> simp) (by rcases hq with rfl | rfl; exact hq1; exact hq2)
  have fw' : ∀ (q : Nat × Nat), (q = (q1, 4) ∨ q = (q2, 5)) → _ := fun q hq =>
    fileW hu hk hv0 hv hS' hF' hw hwf (by rw [e1]; exact noSystematic_uses hu1) (by rw [e2]; exact noSystematic_uses hu2) (sys := false) M2' t2' U2' (by rw [e2]; intros; rfl) R1'
      (W1 := W1) (pos1 := pos1) (scan1 := scan1) (vS1 := vS1) (vI1 := vI1) N1' (m1 := q.1) (m2 := q.2)
      (by rcases hq with rfl | rfl <;> simp) (by rcases hq with rfl | rfl; exact hq1; exact hq2)
  obtain ⟨a, a1, a2, a3, a4, a5, a6⟩ := fw (q1, 4) (.inl rfl)
  obtain ⟨b, b1, b2, b3, b4, b5, b6⟩ := fw (q2, 5) (.inr rfl)
  obtain ⟨c, c1, c2, c3, c4, c5, c6⟩ := fw' (q1, 4) (.inl rfl)
  obtain ⟨d, d1, d2, d3, d4, d5, d6⟩ := fw' (q2, 5) (.inr rfl)
  have hlen : ∀ f : Nat → α, (takeVec kept f).length = kept.length := fun f => by simp [takeVec]
  obtain ⟨s2, hc2, hs2, hx2, ht2, hcomb2⟩ := combined_side M2' t2' (by rw [hlen]; exact hS'.s2.Ur.1) (nm := n2) (by rw [hlen]; exact hS'.s2)
  -- sensor 1
  have hs1 : ∃ s1, st'.s1.combined ws us = .ok s1 ∧ s1.Shaped n1 kept.length p ∧ s1.X = st'.s1.X ∧ (∀ t ∈ s1.utype, t = 1) ∧ (raw.refFirst = true → s1.Ur = st'.s1.Ur) ∧
      (raw.refFirst = false → ∀ (D : Dataset α) (s : Side α) (Ur : Nat → Nat → α), D.M = kept.length → s.Ur = s1.Ur.val → (∀ c, c < s.m → s.utype c = 1) → s.m ≤ 5 →
        (∀ i c, 2 ≤ c → c < 5 → st'.s1.Ur.val i c = Ur i c) → D.Combined s Ur (takeVec kept raw.time1) k1 (takeScan kept raw.uS1) (takeScan kept raw.uI1)) := by
    cases hr : raw.refFirst
    · obtain ⟨x, y, z, _⟩ := N1' hr
      obtain ⟨s1, g1, g2, g3, g4, g5⟩ := combined_side y z (by rw [hlen]; exact hS'.s1.Ur.1) (nm := n1) (by rw [hlen, ← x]; exact hS'.s1)
      refine ⟨s1, g1, by rw [x, ← hlen raw.time1]; exact g2, g3, g4, fun h => absurd h (by simp), fun _ D s Ur hM => g5 D s Ur (by rw [hlen]; exact hM)⟩
    · obtain ⟨x, y, z⟩ := R1' hr
      refine ⟨{ st'.s1 with utype := [1] }, ?_, ⟨hS'.s1.name, hS'.s1.X, hS'.s1.Ur, hS'.s1.Us, by rw [x]; rfl, hS'.s1.lists.2⟩, rfl, by simp, fun _ => rfl, fun h => absurd h (by simp)⟩
      unfold AvhrrSide.combined
      rw [y]
      rfl
  obtain ⟨s1, hc1, hs1, hx1, ht1, hur1, hcomb1⟩ := hs1
  have hp : q1 ≤ p ∧ q2 ≤ p ∧ (q1 = 4 → p = 5) ∧ (q2 = 4 → p = 5) ∧ p ≤ 5 := by
    cases hr : raw.refFirst
    · have := (N1 hr).1; rw [hr] at hq1 hq2; simp only [Bool.false_eq_true, if_false] at hq1 hq2; omega
    · have := (R1 hr).1; rw [hr] at hq1 hq2; simp only [if_true] at hq1 hq2; omega
  have hS'' : AvhrrState.Shaped { st' with s1 := s1, s2 := s2 } n1 n2 kept.length p :=
    ⟨hs1, by have := hs2; rw [hlen] at this; exact this, hS'.K, hS'.time, hS'.additional⟩
  have hF'' : AvhrrState.From { st' with s1 := s1, s2 := s2 } raw kept vars p :=
    ⟨hx1.trans hF'.X1, hx2.trans hF'.X2, hF'.K, hF'.Kr, hF'.Ks, hF'.time1, hF'.time2, hF'.additional⟩
  obtain ⟨e, g1, g2, g3, g4, g5, g6⟩ := filePlain hu hk hv0 hv hS'' hF'' ht1 ht2 hp.1 (m2 := 4) (by omega) hp.2.2.1
  obtain ⟨f, f1, f2, f3, f4, f5, f6⟩ := filePlain hu hk hv0 hv hS'' hF'' ht1 ht2 hp.2.1 (m2 := 5) (by omega) hp.2.2.2.1
  have hz2 : ∀ i c, 2 ≤ c → c < 5 → st'.s2.Ur.val i c = givenUnc kept raw.Ur 5 i c := fun i c h2 h5 => by rw [U2' i c h5, if_neg (by omega)]
  have z2e : ∀ D, (D = e ∨ D = f) → D.Combined D.s2 (givenUnc kept raw.Ur 5) (takeVec kept raw.time2) k2 (takeScan kept raw.uS2) (takeScan kept raw.uI2) := by
    rintro D (rfl | rfl)
    · exact hcomb2 _ _ _ (by rw [hlen]; exact g2.M) g6 g4 (by rw [g2.covariates.2]; omega) hz2
    · exact hcomb2 _ _ _ (by rw [hlen]; exact f2.M) f6 f4 (by rw [f2.covariates.2]) hz2
  have z1e : raw.refFirst = false → ∀ D, (D = e ∨ D = f) → D.Combined D.s1 (givenUnc kept raw.Ur 0) (takeVec kept raw.time1) k1 (takeScan kept raw.uS1) (takeScan kept raw.uI1) := by
    intro hr
    have hz1 : ∀ i c, 2 ≤ c → c < 5 → st'.s1.Ur.val i c = givenUnc kept raw.Ur 0 i c := fun i c h2 h5 => by rw [(N1' hr).2.2.2.1 i c h5, if_neg (by omega)]
    rintro D (rfl | rfl)
    · exact hcomb1 hr _ _ _ g2.M g5 g3 (by rw [g2.covariates.1]; omega) hz1
    · exact hcomb1 hr _ _ _ f2.M f5 f3 (by rw [f2.covariates.1]; omega) hz1
  have zr : raw.refFirst = true → ∀ D, (D = e ∨ D = f) → D.ReferenceSide D.s1 (givenUnc kept raw.Ur 0) := by
    intro hr
    have hq : q1 = 1 ∧ q2 = 1 := by rw [hr] at hq1 hq2; exact ⟨hq1, hq2⟩
    rintro D (rfl | rfl)
    · refine ⟨g3 0 (by rw [g2.covariates.1]; omega), fun i _ => ?_⟩
      rw [g5]; show s1.Ur.val i 0 = _; rw [hur1 hr]; exact (R1' hr).2.2 i
    · refine ⟨f3 0 (by rw [f2.covariates.1]; omega), fun i _ => ?_⟩
      rw [f5]; show s1.Ur.val i 0 = _; rw [hur1 hr]; exact (R1' hr).2.2 i
  refine ⟨a, b, c, d, s1, s2, e, f, a1, b1, c1, d1, hc1, hc2, g1, f1, ?_, ?_, ⟨?_, ?_, ?_, ?_, ?_⟩, ?_⟩
  · simp only [List.mem_cons, List.not_mem_nil, or_false]
    rintro D (rfl | rfl | rfl)
    · exact a2
    · exact c2
    · exact g2
  · simp only [List.mem_cons, List.not_mem_nil, or_false]
    rintro D (rfl | rfl | rfl)
    · exact b2
    · exact d2
    · exact f2
  · simp only [List.mem_cons, List.not_mem_nil, or_false]
    rintro D (rfl | rfl | rfl | rfl)
    · exact a3
    · exact b3
    · exact c3
    · exact d3
  · intro hr
    simp only [List.mem_cons, List.not_mem_nil, or_false]
    rintro D (rfl | rfl | rfl | rfl)
    · exact a5 hr
    · exact b5 hr
    · exact c5 hr
    · exact d5 hr
  · intro hr
    simp only [List.mem_cons, List.not_mem_nil, or_false]
    rintro D (rfl | rfl | rfl | rfl | h)
    · exact a4 hr
    · exact b4 hr
    · exact c4 hr
    · exact d4 hr
    · exact zr hr D h
  · simp only [List.mem_cons, List.not_mem_nil, or_false]
    exact z2e
  · intro hr
    simp only [List.mem_cons, List.not_mem_nil, or_false]
    exact z1e hr
  · simp only [List.mem_cons, List.not_mem_nil, or_false]
    rintro D (rfl | rfl | rfl | rfl | rfl | rfl)
    · exact a6
    · exact b6
    · exact c6
    · exact d6
    · rintro s (rfl | rfl) c hc
      · exact .inl (g3 c hc)
      · exact .inl (g4 c hc)
    · rintro s (rfl | rfl) c hc
      · exact .inl (f3 c hc)
      · exact .inl (f4 c hc)

end Verif
