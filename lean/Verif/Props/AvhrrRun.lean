import Verif.Props.AvhrrTool
import Verif.Props.MWTool
import Verif.Props.Radiance
/-
Property C75: what a run of the AVHRR conversion tool writes.
-/
set_option autoImplicit false
namespace Verif
variable {α : Type} [Field α] [LinearOrder α] [IsStrictOrderedRing α] [FloorRing α]

omit [LinearOrder α] [IsStrictOrderedRing α] [FloorRing α] in
/-- The match-ups kept are determined by the file. -/
theorem AvhrrRaw.Kept.unique {raw : AvhrrRaw α} {l l' : List Nat} (h : raw.Kept l) (h' : raw.Kept l') : l = l' := by
  have hn : ∀ {l : List Nat}, l.Pairwise (· < ·) → l.Nodup := fun h => h.imp (fun h => Nat.ne_of_lt h)
  refine List.Perm.eq_of_pairwise ?_ h.increasing h'.increasing ((List.perm_ext_iff_of_nodup (hn h.increasing) (hn h'.increasing)).2 fun r => by rw [h.mem, h'.mem])
  intro a b _ _ h1 h2
  omega

/-- The matrix and the vectors of one sensor. -/
structure SensorMats (times : List α) (k : Nat) (uS uI : List (List α)) (W : CSR α) (pos scan : List Nat) (vS vI : List α) : Prop where
  genS : generateRollingAverage times (1 / 2) (.rows uS) none none = .ok (W, vS)
  genI : generateRollingAverage times (1 / 2) (.rows uI) none none = .ok (W, vI)
  lines : ScanLines (1 / 2) times pos
  wf : W.WellFormed
  shape : W.Shape
  average : W.RollingAverage pos (List.replicate k (1 / (k : α))) scan
  stored : W.data ≠ [] ∧ 0 < W.ncols ∧ ∀ c, c < W.ncols → c ∈ W.indices
  lengths : vS.length = W.ncols ∧ vI.length = W.ncols
  unc : ∀ u0, (ScanLineUnc uS pos u0 → vS = scan.map u0) ∧ (ScanLineUnc uI pos u0 → vI = scan.map u0)

theorem sensorMats {times : List α} {k : Nat} {uS uI : List (List α)} (ht : times ≠ []) (hk : 0 < k) (hS : uS.length = times.length) (hI : uI.length = times.length)
    (rS : ∀ x ∈ uS, x.length = k) (rI : ∀ x ∈ uI, x.length = k) : ∃ W pos scan vS vI, SensorMats times k uS uI W pos scan vS vI := by
  obtain ⟨W, pos, scan, hl, hwf, hsh, hra, hg⟩ := generate_rows (s := (1 / 2 : α)) ht (by norm_num) hk
  obtain ⟨vS, g1, l1, u1⟩ := hg uS hS rS
  obtain ⟨vI, g2, l2, u2⟩ := hg uI hI rI
  have hk' : (0 : α) < k := by exact_mod_cast hk
  refine ⟨W, pos, scan, vS, vI, g1, g2, hl, hwf, hsh, hra, ?_, ⟨l1, l2⟩, fun u0 => ⟨u1 u0, u2 u0⟩⟩
  exact RollingAverage_stored hsh hra hl.zero ⟨1 / (k : α), List.mem_replicate.2 ⟨by omega, rfl⟩, by positivity⟩

theorem SensorMats.mats {times : List α} {k : Nat} {uS uI : List (List α)} {W : CSR α} {pos scan : List Nat} {vS vI : List α} (h : SensorMats times k uS uI W pos scan vS vI)
    (rS : ∀ x ∈ uS, x.length = k) (rI : ∀ x ∈ uI, x.length = k) {s : AvhrrSide α} {ws : List (CSR α)} {us : List (List α)}
    (w : ∃ w, s.wUse[0]? = some w ∧ s.wUse[1]? = some w ∧ 1 ≤ w ∧ ws[w - 1]? = some W) (useS : ∃ u, s.uUse[0]? = some u ∧ 1 ≤ u ∧ us[u - 1]? = some vS)
    (useI : ∃ u, s.uUse[1]? = some u ∧ 1 ≤ u ∧ us[u - 1]? = some vI) : s.Mats ws us times k uS uI W pos scan vS vI :=
  ⟨h.lines, h.shape, h.average, h.stored, w, useS, useI, h.lengths, rS, rI, h.unc⟩

omit [LinearOrder α] [IsStrictOrderedRing α] [FloorRing α] in
theorem takeScan_rows {raw : AvhrrRaw α} {kept : List Nat} (hk : ∀ r ∈ kept, r < raw.M) {u : List (List (Option α))} (hu : u.length = raw.M) {k : Nat} (h : ∀ row ∈ u, row.length = k) :
    (takeScan kept u).length = kept.length ∧ ∀ x ∈ takeScan kept u, x.length = k := by
  refine ⟨by simp [takeScan], fun x hx => ?_⟩
  obtain ⟨r, hr, rfl⟩ := List.mem_map.1 hx
  have hr' := hk r hr
  rw [List.length_map, List.getD_eq_getElem?_getD, List.getElem?_eq_getElem (by omega)]
  exact h _ (List.getElem_mem _)

omit [LinearOrder α] [IsStrictOrderedRing α] [FloorRing α] in
theorem usesOk_of {s : AvhrrSide α} {nw nu w a b : Nat} (ht : s.utype = [3, 3, 1, 2, 2]) (hw : s.wUse = [w, w, 0, 0, 0]) (hu : s.uUse = [a, b, 0, 0, 0]) (h1 : 1 ≤ w ∧ w ≤ nw)
    (h2 : 1 ≤ a ∧ a ≤ nu) (h3 : 1 ≤ b ∧ b ≤ nu) : s.UsesOk nw nu := by
  intro c t x y ct cw cu
  rw [ht] at ct; rw [hw] at cw; rw [hu] at cu
  rcases c with _ | _ | _ | _ | _ | c <;> simp at ct cw cu <;> omega

/-- **C75.** From a file the tool is meant for, with at least one match-up without nan among its scan-line uncertainties, six readable files are written: for four and five
covariates, with all effects, without systematic effects, and with random uncertainties only. Each holds the kept match-ups; the uncertainties are those of `AvhrrUncertainties`. -/
theorem C75_files_partial {raw : AvhrrRaw α} {kept : List Nat} {n1 n2 band : String} {k1 k2 : Nat} (hu : raw.Usable n1 n2 band k1 k2) (hkept : raw.Kept kept) (hne : kept ≠ [])
    (conv : Option String → List α → Py (List α)) (hc : ∀ n ∈ [n1, n2], ∀ x, ∃ y, conv (some n) x = .ok y) (dir base : String) :
    ∃ a b c d e f, avhrrRun conv dir base none raw = .ok [(pjoin (pjoin dir "AVHRR_REAL_101_RSW_") base, a), (pjoin (pjoin dir "AVHRR_REAL_102_RSW_") base, b),
        (pjoin (pjoin dir "AVHRR_REAL_101_R_W_") base, c), (pjoin (pjoin dir "AVHRR_REAL_102_R_W_") base, d), (pjoin (pjoin dir "AVHRR_REAL_101_R___") base, e),
        (pjoin (pjoin dir "AVHRR_REAL_102_R___") base, f)] ∧
      (∀ D ∈ [a, c, e], D.AvhrrFile raw kept n1 n2 band (if raw.refFirst then 1 else 4) 4) ∧ (∀ D ∈ [b, d, f], D.AvhrrFile raw kept n1 n2 band (if raw.refFirst then 1 else 5) 5) ∧
      AvhrrUncertainties raw kept k1 k2 a b c d e f ∧ ∀ D ∈ [a, b, c, d, e, f], ∀ s, s = D.s1 ∨ s = D.s2 → ∀ c, c < s.m → D.ReadableColumn s c := by
  obtain ⟨b, vars, hvars, hv0, hv, _, _⟩ := avhrrVariables_ok hu hc
  have hk : ∀ r ∈ kept, r < raw.M := fun r hr => ((hkept.mem r).1 hr).1
  have hM : raw.M ≠ 0 := by
    obtain ⟨r, hr⟩ := List.exists_mem_of_ne_nil _ hne
    have := hk r hr; omega
  have hkr : keptRows (avhrrValid raw.uS1 raw.uI1 raw.uS2 raw.uI2) = kept := (kept_ok hu).unique hkept
  have hl : ∀ f : Nat → α, (takeVec kept f).length = kept.length := fun f => by simp [takeVec]
  have htne : ∀ f : Nat → α, takeVec kept f ≠ [] := by
    intro f h
    have := congrArg List.length h
    rw [hl] at this
    exact hne (List.length_eq_zero_iff.1 this)
  obtain ⟨hk2, hrow2⟩ := hu.kernel2
  obtain ⟨a1, a2⟩ := takeScan_rows hk (hu.rows raw.uS2 (by simp)) (fun row h => hrow2 row (List.mem_append_left _ h))
  obtain ⟨b1, b2⟩ := takeScan_rows hk (hu.rows raw.uI2 (by simp)) (fun row h => hrow2 row (List.mem_append_right _ h))
  obtain ⟨W2, pos2, scan2, vS2, vI2, m2⟩ := sensorMats (htne raw.time2) hk2 (by rw [a1, hl]) (by rw [b1, hl]) a2 b2
  have hn1 := getNewName_ok hu.name1
  have hn2 := getNewName_ok hu.name2
  have hnrow : ∀ {f : Nat → α} {k : Nat} {uS uI : List (List α)} {W : CSR α} {pos scan : List Nat} {vS vI : List α}, SensorMats (takeVec kept f) k uS uI W pos scan vS vI → W.WellFormed ∧ W.nrows = kept.length ∧ W.data ≠ [] := by
    intro f k uS uI W pos scan vS vI h
    exact ⟨h.wf, by rw [h.average.rows, h.lines.length, hl], h.stored.1⟩
  -- the rest of the run, given the state
  have finish : ∀ (st : AvhrrState α) (ws : List (CSR α)) (us : List (List α)) (p : Nat) (W1 : CSR α) (pos1 scan1 : List Nat) (vS1 vI1 : List α),
      avhrrPrepare raw kept vars = .ok (st, ws, us) → st.Shaped n1 n2 kept.length p → st.From raw kept vars p → ws ≠ [] → (∀ w ∈ ws, w.WellFormed ∧ w.nrows = kept.length ∧ w.data ≠ []) →
      st.s1.UsesOk ws.length us.length → st.s2.UsesOk ws.length us.length →
      st.s2.Mats ws us (takeVec kept raw.time2) k2 (takeScan kept raw.uS2) (takeScan kept raw.uI2) W2 pos2 scan2 vS2 vI2 → st.s2.utype = [3, 3, 1, 2, 2] →
      (∀ i c, c < 5 → st.s2.Ur.val i c = if c < 2 then 0 else givenUnc kept raw.Ur 5 i c) → (∀ i c, c < 5 → 3 ≤ c → st.s2.Us.val i c = givenUnc kept raw.Us 5 i c) →
      (raw.refFirst = true → p = 1 ∧ st.s1.utype = [1] ∧ ∀ i, st.s1.Ur.val i 0 = givenUnc kept raw.Ur 0 i 0) →
      (raw.refFirst = false → p = 5 ∧ st.s1.Mats ws us (takeVec kept raw.time1) k1 (takeScan kept raw.uS1) (takeScan kept raw.uI1) W1 pos1 scan1 vS1 vI1 ∧
        st.s1.utype = [3, 3, 1, 2, 2] ∧ (∀ i c, c < 5 → st.s1.Ur.val i c = if c < 2 then 0 else givenUnc kept raw.Ur 0 i c) ∧
        ∀ i c, c < 5 → 3 ≤ c → st.s1.Us.val i c = givenUnc kept raw.Us 0 i c) →
      ∃ a b c d e f, avhrrRun conv dir base none raw = .ok [(pjoin (pjoin dir "AVHRR_REAL_101_RSW_") base, a), (pjoin (pjoin dir "AVHRR_REAL_102_RSW_") base, b),
        (pjoin (pjoin dir "AVHRR_REAL_101_R_W_") base, c), (pjoin (pjoin dir "AVHRR_REAL_102_R_W_") base, d), (pjoin (pjoin dir "AVHRR_REAL_101_R___") base, e),
        (pjoin (pjoin dir "AVHRR_REAL_102_R___") base, f)] ∧
      (∀ D ∈ [a, c, e], D.AvhrrFile raw kept n1 n2 band (if raw.refFirst then 1 else 4) 4) ∧ (∀ D ∈ [b, d, f], D.AvhrrFile raw kept n1 n2 band (if raw.refFirst then 1 else 5) 5) ∧
      AvhrrUncertainties raw kept k1 k2 a b c d e f ∧ ∀ D ∈ [a, b, c, d, e, f], ∀ s, s = D.s1 ∨ s = D.s2 → ∀ c, c < s.m → D.ReadableColumn s c := by
    intro st ws us p W1 pos1 scan1 vS1 vI1 hprep hS hF hws hwf u1 u2 M2 t2 U2 V2 R1 N1
    obtain ⟨v, hv', _⟩ := C09_w_u_roundtrip ws us kept.length hws hwf
    obtain ⟨A, B, C, D, s1, s2, E, F, r1, r2, r3, r4, r5, r6, r7, r8, r9, r10, r11, r12⟩ := sixFiles hu hk hv0 hv hS hF hws hwf u1 u2 M2 t2 U2 V2 R1 N1 rfl rfl rfl
    refine ⟨A, B, C, D, E, F, ?_, r9, r10, r11, r12⟩
    have hm : (if raw.refFirst then ((1, 1) : Nat × Nat) else (4, 5)) = (if raw.refFirst then 1 else 4, if raw.refFirst then 1 else 5) := by cases raw.refFirst <;> rfl
    unfold avhrrRun
    rw [hvars]
    simp only [bind, Except.bind, avhrrMask, hkr, hprep, hv', hm]
    rw [r1]; simp only
    rw [r2]; simp only
    rw [r3]; simp only
    rw [r4]; simp only
    rw [r5]; simp only
    rw [r6]; simp only
    rw [r7]; simp only
    rw [r8]
    rfl
  cases hr : raw.refFirst
  · obtain ⟨hk1, hrow1⟩ := hu.kernel1 hr
    obtain ⟨c1, c2⟩ := takeScan_rows hk (hu.rows raw.uS1 (by simp)) (fun row h => hrow1 row (List.mem_append_left _ h))
    obtain ⟨d1, d2⟩ := takeScan_rows hk (hu.rows raw.uI1 (by simp)) (fun row h => hrow1 row (List.mem_append_right _ h))
    obtain ⟨W1, pos1, scan1, vS1, vI1, m1⟩ := sensorMats (htne raw.time1) hk1 (by rw [c1, hl]) (by rw [d1, hl]) c2 d2
    have hmat : avhrrMatrices raw.refFirst (takeScan kept raw.uS1) (takeScan kept raw.uI1) (takeScan kept raw.uS2) (takeScan kept raw.uI2) (takeVec kept raw.time1) (takeVec kept raw.time2) =
        .ok ([W1, W2], [vS1, vI1, vS2, vI2]) := by
      unfold avhrrMatrices
      rw [m2.genS, m2.genI, m1.genS, m1.genI, hr]
      rfl
    have hprep : ∃ st, avhrrPrepare raw kept vars = .ok (st, [W1, W2], [vS1, vI1, vS2, vI2]) ∧
      st = {
            s1 := ⟨getNewName raw.lm.1, takeRows kept raw.H 0 5, takeRows kept (fun r c => if c = 5 ∨ c = 6 ∨ (raw.refFirst = false ∧ (c = 0 ∨ c = 1)) then 0 else raw.Ur r c) 0 5, takeRows kept (fun r c => if raw.refFirst ∧ c = 0 then 0 else raw.Us r c) 0 5, [3, 3, 1, 2, 2], [1, 1, 0, 0, 0], [1, 2, 0, 0, 0]⟩
            s2 := ⟨getNewName raw.lm.2, takeRows kept raw.H 5 5, takeRows kept (fun r c => if c = 5 ∨ c = 6 ∨ (raw.refFirst = false ∧ (c = 0 ∨ c = 1)) then 0 else raw.Ur r c) 5 5, takeRows kept (fun r c => if raw.refFirst ∧ c = 0 then 0 else raw.Us r c) 5 5, [3, 3, 1, 2, 2], [2, 2, 0, 0, 0], [3, 4, 0, 0, 0]⟩
            K := takeVec kept raw.K
            Kr := takeVec kept raw.Kr
            Ks := takeVec kept raw.Ks
            time1 := takeVec kept raw.time1
            time2 := takeVec kept raw.time2
            additional := avhrrAdditional vars kept } := by
      refine ⟨_, ?_, rfl⟩
      unfold avhrrPrepare
      rw [hr] at hmat
      rw [if_neg hM]
      simp only [hr, avhrrUses, hmat, bind, Except.bind, pure, Except.pure, if_true, Bool.false_eq_true, if_false]
    obtain ⟨st, hprep, hst⟩ := hprep
    have hf := finish st _ _ 5 W1 pos1 scan1 vS1 vI1 hprep
    rw [hr] at hf
    subst hst
    refine hf ⟨⟨hn1, ⟨rfl, rfl⟩, ⟨rfl, rfl⟩, ⟨rfl, rfl⟩, rfl, rfl, rfl⟩, ⟨hn2, ⟨rfl, rfl⟩, ⟨rfl, rfl⟩, ⟨rfl, rfl⟩, rfl, rfl, rfl⟩, ⟨hl _, hl _, hl _⟩, ⟨hl _, hl _⟩, avhrrAdditional_ok vars kept⟩
      ⟨rfl, rfl, rfl, rfl, rfl, rfl, rfl, rfl⟩ (by simp) ?_ (usesOk_of rfl rfl rfl (by simp) (by simp) (by simp)) (usesOk_of rfl rfl rfl (by simp) (by simp) (by simp))
      (m2.mats a2 b2 ⟨2, rfl, rfl, by omega, rfl⟩ ⟨3, rfl, by omega, rfl⟩ ⟨4, rfl, by omega, rfl⟩) rfl ?_ ?_ (by simp) ?_
    · intro w hw
      simp only [List.mem_cons, List.not_mem_nil, or_false] at hw
      rcases hw with rfl | rfl
      · exact hnrow m1
      · exact hnrow m2
    · intro i c hc
      simp only [takeRows, givenUnc, hr]
      rcases c with _ | _ | c
      · simp
      · simp
      · rw [if_neg (by omega), if_neg (by omega)]
    · intro i c hc h3
      simp only [takeRows, givenUnc, hr]
      simp
    · intro _
      refine ⟨rfl, m1.mats c2 d2 ⟨1, rfl, rfl, by omega, rfl⟩ ⟨1, rfl, by omega, rfl⟩ ⟨2, rfl, by omega, rfl⟩, rfl, ?_, ?_⟩
      · intro i c hc
        simp only [takeRows, givenUnc, hr]
        rcases c with _ | _ | c
        · simp
        · simp
        · rw [if_neg (by omega), if_neg (by omega)]
      · intro i c hc h3
        simp only [takeRows, givenUnc, hr]
        simp
  · have hmat : avhrrMatrices raw.refFirst (takeScan kept raw.uS1) (takeScan kept raw.uI1) (takeScan kept raw.uS2) (takeScan kept raw.uI2) (takeVec kept raw.time1) (takeVec kept raw.time2) =
        .ok ([W2], [vS2, vI2]) := by
      unfold avhrrMatrices
      rw [m2.genS, m2.genI, hr]
      rfl
    have hprep : ∃ st, avhrrPrepare raw kept vars = .ok (st, [W2], [vS2, vI2]) ∧
      st = {
            s1 := ⟨getNewName raw.lm.1, takeRows kept raw.H 0 1, takeRows kept (fun r c => if c = 5 ∨ c = 6 ∨ (raw.refFirst = false ∧ (c = 0 ∨ c = 1)) then 0 else raw.Ur r c) 0 1, takeRows kept (fun r c => if raw.refFirst ∧ c = 0 then 0 else raw.Us r c) 0 1, [1], [0], [0]⟩
            s2 := ⟨getNewName raw.lm.2, takeRows kept raw.H 5 5, takeRows kept (fun r c => if c = 5 ∨ c = 6 ∨ (raw.refFirst = false ∧ (c = 0 ∨ c = 1)) then 0 else raw.Ur r c) 5 5, takeRows kept (fun r c => if raw.refFirst ∧ c = 0 then 0 else raw.Us r c) 5 5, [3, 3, 1, 2, 2], [1, 1, 0, 0, 0], [1, 2, 0, 0, 0]⟩
            K := takeVec kept raw.K
            Kr := takeVec kept raw.Kr
            Ks := takeVec kept raw.Ks
            time1 := takeVec kept raw.time1
            time2 := takeVec kept raw.time2
            additional := avhrrAdditional vars kept } := by
      refine ⟨_, ?_, rfl⟩
      unfold avhrrPrepare
      rw [hr] at hmat
      rw [if_neg hM]
      simp only [hr, avhrrUses, hmat, bind, Except.bind, pure, Except.pure, if_true, Bool.false_eq_true, if_false]
    obtain ⟨st, hprep, hst⟩ := hprep
    have hf := finish st _ _ 1 W2 pos2 scan2 vS2 vI2 hprep
    rw [hr] at hf
    subst hst
    refine hf ⟨⟨hn1, ⟨rfl, rfl⟩, ⟨rfl, rfl⟩, ⟨rfl, rfl⟩, rfl, rfl, rfl⟩, ⟨hn2, ⟨rfl, rfl⟩, ⟨rfl, rfl⟩, ⟨rfl, rfl⟩, rfl, rfl, rfl⟩, ⟨hl _, hl _, hl _⟩, ⟨hl _, hl _⟩, avhrrAdditional_ok vars kept⟩
      ⟨rfl, rfl, rfl, rfl, rfl, rfl, rfl, rfl⟩ (by simp) ?_ ?_ (usesOk_of rfl rfl rfl (by simp) (by simp) (by simp))
      (m2.mats a2 b2 ⟨1, rfl, rfl, by omega, rfl⟩ ⟨1, rfl, by omega, rfl⟩ ⟨2, rfl, by omega, rfl⟩) rfl ?_ ?_ ?_ (by simp)
    · intro w hw
      simp only [List.mem_cons, List.not_mem_nil, or_false] at hw
      subst hw
      exact hnrow m2
    · intro c t x y ct cw cu
      rcases c with _ | c <;> simp at ct
      omega
    · intro i c hc
      simp only [takeRows, givenUnc, hr]
      rcases c with _ | _ | c
      · simp
      · simp
      · rw [if_neg (by simp; omega), if_neg (by omega)]
    · intro i c hc h3
      simp only [takeRows, givenUnc, hr]
      rw [if_neg (by omega)]
    · intro _
      refine ⟨rfl, rfl, fun i => ?_⟩
      simp only [takeRows, givenUnc, hr]
      simp

/-- Each of the six files, alone, can be opened. -/
theorem C75_opens {δ : Type} (env : ReadEnv α δ) (he : EnumOk env.enumNat) (he' : EnumOk env.enumStr) {raw : AvhrrRaw α} {kept : List Nat} {n1 n2 band : String} {k1 k2 : Nat}
    (hu : raw.Usable n1 n2 band k1 k2) (hkept : raw.Kept kept) (hne : kept ≠ []) (hn : n1 ≠ n2) (conv : Option String → List α → Py (List α))
    (hc : ∀ n ∈ [n1, n2], ∀ x, ∃ y, conv (some n) x = .ok y) (dir base : String) :
    ∃ out, avhrrRun conv dir base none raw = .ok out ∧ out.length = 6 ∧ ∀ D ∈ out, ∃ mu, openMatchUp env [D.2] = .ok mu := by
  obtain ⟨a, b, c, d, e, f, hrun, hA, hB, _, hR⟩ := C75_files_partial hu hkept hne conv hc dir base
  refine ⟨_, hrun, rfl, ?_⟩
  have hfile : ∀ D ∈ [a, b, c, d, e, f], ∃ m1 m2, D.AvhrrFile raw kept n1 n2 band m1 m2 := by
    intro D hD
    simp only [List.mem_cons, List.not_mem_nil, or_false] at hD hA hB
    rcases hD with rfl | rfl | rfl | rfl | rfl | rfl
    · exact ⟨_, _, hA _ (by simp)⟩
    · exact ⟨_, _, hB _ (by simp)⟩
    · exact ⟨_, _, hA _ (by simp)⟩
    · exact ⟨_, _, hB _ (by simp)⟩
    · exact ⟨_, _, hA _ (by simp)⟩
    · exact ⟨_, _, hB _ (by simp)⟩
  have key : ∀ D ∈ [a, b, c, d, e, f], ∃ mu, openMatchUp env [D] = .ok mu := by
    intro D hD
    obtain ⟨m1, m2, hf⟩ := hfile D hD
    have hnm : D.s1.name ≠ D.s2.name := by rw [hf.names.1, hf.names.2]; exact hn
    refine C67_opens env he he' (by simp) ⟨?_, ?_⟩ ?_ ?_
    · intro x hx
      rw [List.mem_singleton] at hx
      subst hx; exact hnm
    · intro x hx y hy s hs t ht hst
      rw [List.mem_singleton] at hx hy
      subst hx hy
      simp only [List.mem_cons, List.not_mem_nil, or_false] at hs ht
      rcases hs with rfl | rfl <;> rcases ht with rfl | rfl
      · rfl
      · exact absurd hst hnm
      · exact absurd hst.symm hnm
      · rfl
    · intro x hx _ _ name v hv _
      rw [List.mem_singleton] at hx
      subst hx
      have hm : (name, v) ∈ x.vars := by
        unfold Dataset.var? at hv
        obtain ⟨y, hy, rfl⟩ := Option.map_eq_some_iff.1 hv
        have h1 := List.find?_some hy
        simp only [beq_iff_eq] at h1
        subst h1
        exact List.mem_of_find?_eq_some hy
      rw [hf.M]
      obtain ⟨_, h | ⟨_, _, _, _, h⟩ | ⟨_, _, h⟩ | ⟨_, _, h⟩⟩ := (hf.additional name v).1 hm
      · rw [h.2, List.length_map]
      · rw [h, List.length_map]
      · rw [h, List.length_map]
      · rw [h, List.length_map]
    · intro x hx
      rw [List.mem_singleton] at hx
      subst hx
      exact hR x hD
  intro D hD
  simp only [List.mem_cons, List.not_mem_nil, or_false] at hD
  rcases hD with rfl | rfl | rfl | rfl | rfl | rfl <;> exact key _ (by simp)

omit [LinearOrder α] [IsStrictOrderedRing α] [FloorRing α] in
/-- The conversion to radiances works for every sensor the tool knows. -/
theorem C75_conversion : ∀ e ∈ avhrrNames, ∀ x, ∃ y, convertBT2rad (some e.2) x = .ok y := by
  have hb : ∀ e ∈ avhrrNames, ∃ c ∈ bandTable.map (fun t => (⟨t.2.1, t.2.2.1, t.2.2.2⟩ : BandCoefs)), returnBandCoefs e.2 = .ok c ∧ ∃ nu ∈ c.nuc, ∃ a ∈ c.aval, ∃ b ∈ c.bval, bandOf c 2 = .ok (nu, a, b) := by
    decide +kernel
  intro e he x
  obtain ⟨c, _, hc, nu, _, a, _, b, _, hn⟩ := hb e he
  unfold convertBT2rad temp2radArray
  simp only [hc, hn, bind, Except.bind, pure, Except.pure]
  exact ⟨_, rfl⟩

theorem sum_sq_lt {α : Type} [Field α] [LinearOrder α] [IsStrictOrderedRing α] : ∀ (row : List α), (∀ x ∈ row, 0 < x) → 2 ≤ row.length → (row.map (· ^ 2)).sum < row.sum ^ 2 := by
  have hle : ∀ (row : List α), (∀ x ∈ row, 0 < x) → 0 ≤ row.sum ∧ (row.map (· ^ 2)).sum ≤ row.sum ^ 2 ∧ (row ≠ [] → 0 < row.sum) := by
    intro row
    induction row with
    | nil => intro _; simp
    | cons a l ih =>
      intro h
      obtain ⟨i1, i2, _⟩ := ih fun x hx => h x (List.mem_cons_of_mem _ hx)
      have ha := h a List.mem_cons_self
      rw [List.map_cons, List.sum_cons, List.sum_cons]
      refine ⟨by linarith, ?_, fun _ => by linarith⟩
      nlinarith [mul_nonneg ha.le i1]
  intro row h h2
  rcases row with _ | ⟨a, l⟩
  · simp at h2
  obtain ⟨_, i2, i3⟩ := hle l fun x hx => h x (List.mem_cons_of_mem _ hx)
  have ha := h a List.mem_cons_self
  have := i3 (by rintro rfl; simp at h2)
  rw [List.map_cons, List.sum_cons, List.sum_cons]
  nlinarith [mul_pos ha this]

/-- In the files with random uncertainties only, the uncertainty of an average over two or more scan lines is **not** that of the mean of `k` values with independent errors:
its square, the mean of the uncertainties squared, is larger than the sum of the squares of the uncertainties times the weights. -/
theorem C75_combined_too_large {D : Dataset α} {s : Side α} {Ur : Nat → Nat → α} {times : List α} {k : Nat} {uS uI : List (List α)} (h : D.Combined s Ur times k uS uI) (hk : 2 ≤ k)
    {rows : List (List α)} {c : Nat} (hc : c = 0 ∧ rows = uS ∨ c = 1 ∧ rows = uI) {u0 : Nat → α} (hu : ∀ pos, ScanLines (1 / 2) times pos → ScanLineUnc rows pos u0) {i : Nat} {row : List α} (hi : i < D.M)
    (hr : rows[i]? = some row) (hl : row.length = k) (hpos : ∀ x ∈ row, 0 < x) : (row.map fun u => (u / (k : α)) ^ 2).sum < (s.Ur i c) ^ 2 := by
  obtain ⟨pos, hp, hv⟩ := h.averaged
  rw [hv rows c hc u0 (hu pos hp) i row hi hr]
  have hk' : (0 : α) < k := by exact_mod_cast (by omega : 0 < k)
  have e : (row.map fun u => (u / (k : α)) ^ 2).sum = (row.map (· ^ 2)).sum / (k : α) ^ 2 := by
    clear hr hl hpos
    induction row with
    | nil => simp
    | cons a l ih => rw [List.map_cons, List.sum_cons, List.map_cons, List.sum_cons, ih]; ring
  rw [e, div_pow]
  have := sum_sq_lt row hpos (by omega)
  gcongr

/-- With a temperature limit the tool fails, for every file it is meant for: the brightness temperatures have been renamed. -/
theorem C75_temperature_limit_fails {raw : AvhrrRaw α} {n1 n2 band : String} {k1 k2 : Nat} (hu : raw.Usable n1 n2 band k1 k2)
    (conv : Option String → List α → Py (List α)) (hc : ∀ n ∈ [n1, n2], ∀ x, ∃ y, conv (some n) x = .ok y) (dir base : String) (l : α) :
    avhrrRun conv dir base (some l) raw = .error .keyError := by
  obtain ⟨b, vars, hvars, hv0, hv, hother, hbt⟩ := avhrrVariables_ok hu hc
  have h11 : lookupVar vars "BT11" = none := by
    by_cases hb : band = "11"
    · subst hb; exact hbt
    · rcases hother "BT11" (by decide +kernel) (by decide +kernel) (by decide +kernel) with h | h
      · exact h
      · rw [h]
        by_contra hx
        obtain ⟨x, hx⟩ := Option.ne_none_iff_exists'.1 hx
        have hm := lookupVar_isSome.2 ⟨x, hx⟩
        have h3 : ['B', 'T'] <:+: ("BT11" : String).toList := (hasBT_iff _).1 (by decide +kernel)
        have hall : ∀ band ∈ ["37", "12"], "BT11" ≠ "BT" ++ band ∧ "BT11" ≠ "ref_BT" ++ band := by decide +kernel
        have := hall band (by have := hu.infrared; simp [hb] at this ⊢; exact this)
        rcases hu.onlyBt _ hm h3 with h | h
        · exact this.1 h
        · exact this.2 h
  unfold avhrrRun avhrrMask
  rw [hvars]
  simp only [bind, Except.bind, dictGet_none h11]

omit [LinearOrder α] [IsStrictOrderedRing α] [FloorRing α] in
/-- The names of the directories do not depend on the band, although the tool means to use 105 and 106 for the 3.7 micrometre band: an integer is compared with a string. -/
theorem C75_band_ignored (dir base : String) (band : Nat) : avhrrPaths dir base band = avhrrPaths dir base 11 := rfl

/-- The nominal measurands written are the brightness temperatures given, not the radiances computed from them. -/
theorem C75_measurands_are_temperatures {D : Dataset α} {raw : AvhrrRaw α} {kept : List Nat} {n1 n2 band : String} {m1 m2 : Nat} (h : D.AvhrrFile raw kept n1 n2 band m1 m2)
    {v : NcVar α} : ("nominal_measurand2", v) ∈ D.vars ↔ v.dims = ["M"] ∧ ∃ x, ("BT" ++ band, x) ∈ raw.vars ∧ v.data = kept.map fun r => x.getD r 0 := by
  rw [h.additional]
  refine and_congr_right fun _ => ?_
  have hren : ∀ e ∈ avhrrRenamed, e.2 = "nominal_measurand2" → e.1 = "BT" := by decide +kernel
  constructor
  · rintro (⟨h, _⟩ | ⟨old, x, h1, h3, h4⟩ | ⟨h, _⟩ | ⟨h, _⟩)
    · exact absurd h (by decide +kernel)
    · have e := hren _ (avhrrCopied_iff.1 h1).1 rfl
      simp only at e
      subst e
      exact ⟨x, by simpa [rawName] using h3, h4⟩
    · exact absurd h (by decide +kernel)
    · exact absurd h (by decide +kernel)
  · rintro ⟨x, h1, h2⟩
    exact .inr (.inl ⟨"BT", x, avhrrCopied_iff.2 ⟨by decide +kernel, by decide +kernel⟩, by simpa [rawName] using h1, h2⟩)

omit [IsStrictOrderedRing α] [FloorRing α] in
/-- The rows that would be kept with a temperature limit: those without nan among their scan-line uncertainties whose temperature is not below the limit, in order. -/
theorem C75_mask_limit (u11 u12 u21 u22 : List (List (Option α))) (bt : List α) (lim : α) :
    (keptRows (avhrrValidLim u11 u12 u21 u22 bt lim)).Pairwise (· < ·) ∧
      ∀ r, r ∈ keptRows (avhrrValidLim u11 u12 u21 u22 bt lim) ↔ r < u11.length ∧ (∀ u ∈ [u11, u12, u21, u22], none ∉ u.getD r []) ∧ lim ≤ bt.getD r 0 := by
  refine ⟨List.Pairwise.filter _ List.pairwise_lt_range, fun r => ?_⟩
  unfold keptRows
  rw [List.mem_filter, List.mem_range]
  unfold avhrrValidLim avhrrValid
  rw [List.length_map, List.length_zipIdx, List.length_map, List.length_range]
  refine and_congr_right fun hr => ?_
  rw [List.getD_eq_getElem?_getD, List.getElem?_map, List.getElem?_zipIdx, List.getElem?_map, List.getElem?_range hr]
  have e : ∀ row : List (Option α), hasNan row = false ↔ none ∉ row := by
    intro row
    rw [← Bool.not_eq_true, hasNan_iff]
  simp [e]
  tauto

/-- A file with three match-ups of two sensors, the second lacking a scan line. -/
def Fixture.avhrrRaw (f : Nat → Nat → ℚ) (t : Nat → ℚ) : AvhrrRaw ℚ where
  M := 3
  lm := (-1, 19)
  H := f
  Ur := f
  Us := f
  refFirst := false
  K := t
  Kr := t
  Ks := t
  time1 := t
  time2 := t
  uS1 := [[some 1, some 1], [none, some 1], [some 1, some 1]]
  uI1 := [[some 2, some 2], [some 2, some 2], [some 2, some 2]]
  uS2 := [[some 1, some 1, some 1], [some 1, some 1, some 1], [some 1, some 1, some 1]]
  uI2 := [[some 3, some 3, some 3], [some 3, some 3, some 3], [some 3, some 3, some 3]]
  vars := [("latitude", [1, 2, 3]), ("ref_BT11", [280, 281, 282]), ("BT11", [290, 291, 292])]

theorem C75_case (f : Nat → Nat → ℚ) (t : Nat → ℚ) : (Fixture.avhrrRaw f t).Usable "m02" "n19" "11" 2 3 ∧ (Fixture.avhrrRaw f t).Kept [0, 2] ∧
    ∀ pos, ScanLineUnc (takeScan [0, 2] (Fixture.avhrrRaw f t).uI2) pos (fun _ => 3) := by
  have hu : (Fixture.avhrrRaw f t).Usable "m02" "n19" "11" 2 3 := by
    refine ⟨?_, ?_, ?_, fun _ => ⟨by omega, ?_⟩, ⟨by omega, ?_⟩, .inr (.inl rfl), ?_, ?_, ?_⟩
    · show ((-1 : Int), "m02") ∈ avhrrNames; decide +kernel
    · show ((19 : Int), "n19") ∈ avhrrNames; decide +kernel
    · intro u hu
      simp only [Fixture.avhrrRaw, List.mem_cons, List.not_mem_nil, or_false] at hu ⊢
      rcases hu with rfl | rfl | rfl | rfl <;> rfl
    · simp [Fixture.avhrrRaw]
    · simp [Fixture.avhrrRaw]
    · show "BT" ++ "11" ∈ ["latitude", "ref_BT11", "BT11"]; decide +kernel
    · have : ∀ n ∈ ["latitude", "ref_BT11", "BT11"], hasBT n.toList = true → n = "BT" ++ "11" ∨ n = "ref_BT" ++ "11" := by decide +kernel
      intro n hn hb
      exact this n hn ((hasBT_iff _).2 hb)
    · show ["latitude", "ref_BT11", "BT11"].Nodup; decide +kernel
  refine ⟨hu, ?_, ?_⟩
  · have := kept_ok hu
    have e : keptRows (avhrrValid (Fixture.avhrrRaw f t).uS1 (Fixture.avhrrRaw f t).uI1 (Fixture.avhrrRaw f t).uS2 (Fixture.avhrrRaw f t).uI2) = [0, 2] := rfl
    rw [e] at this; exact this
  · intro pos
    refine ⟨fun _ => by norm_num, ?_⟩
    intro i p row _ hr j x hx
    have : row = [3, 3, 3] := by
      have := List.mem_of_getElem? hr
      simpa [takeScan, Fixture.avhrrRaw] using this
    subst this
    have := List.mem_of_getElem? hx
    simpa using this

end Verif
