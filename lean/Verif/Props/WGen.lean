import Verif.Lemmas.WGen
import Verif.Spec.Rolling
import Verif.Spec.WMatrix
import Mathlib.Algebra.Order.BigOperators.Group.List
/-
Property C56: generated rolling-average W matrices are valid.
-/
set_option autoImplicit false
namespace Verif
variable {α : Type} [Field α] [LinearOrder α] [IsStrictOrderedRing α] [FloorRing α]

/-! ### Positions -/

theorem columnPositions_ok {s : α} (hs : 1 / 100 < s) {times : List α} (ht : times ≠ []) :
    ∃ pos, columnPositions s times = .ok pos ∧ ScanLines s times pos := by
  obtain ⟨t0, ts, rfl⟩ := List.exists_cons_of_ne_nil ht
  have e1 := relativePositions_eq hs t0 ts
  set rel := (t0 :: ts).map fun t => pyRound ((t - t0) / s) with hrel
  obtain ⟨m, hm, hmem, hle⟩ := minInt_ok (l := rel) (by simp [hrel])
  refine ⟨_, bind_ok.2 ⟨_, e1, bind_ok.2 ⟨_, hm, rfl⟩⟩, by simp [hrel], ?_, ?_⟩
  · exact List.mem_map.2 ⟨m, hmem, by simp⟩
  · intro i p p0 t t' h1 h2 h3 h4
    simp only [List.getElem?_cons_zero, Option.some.injEq] at h3
    subst h3
    have g0 : rel[0]? = some 0 := by simp [hrel, pyRound_zero]
    have gi : rel[i]? = some (pyRound ((t - t0) / s)) := by simp only [hrel, List.getElem?_map, h1, Option.map_some]
    rw [List.getElem?_map, g0] at h4
    rw [List.getElem?_map, gi] at h2
    simp only [Option.map_some, Option.some.injEq] at h2 h4
    have l0 := hle 0 (List.mem_of_getElem? g0)
    have li := hle _ (List.mem_of_getElem? gi)
    have c0 : ((p0 : Int) : α) = ((0 - m : Int) : α) := by congr 1; omega
    have ci : ((p : Int) : α) = ((pyRound ((t - t0) / s) - m : Int) : α) := by congr 1; omega
    have := pyRound_near ((t - t0) / s)
    push_cast at c0 ci
    rw [c0, ci]
    convert this using 2
    ring

/-! ### Selecting columns -/

omit [IsStrictOrderedRing α] [FloorRing α] in
theorem mem_usedColumns {rows : List (List (Nat × α))} {n c : Nat} :
    c ∈ (csrOfRows rows n).usedColumns ↔ c < n ∧ ∃ r ∈ rows, ∃ e ∈ r, e.1 = c ∧ e.2 ≠ 0 := by
  unfold CSR.usedColumns
  have hz : (csrOfRows rows n).indices.zip (csrOfRows rows n).data = rows.flatten := by
    simp only [csrOfRows]; rw [List.zip_map', List.map_id']
  rw [List.mem_filter, hz]
  simp only [csrOfRows, List.mem_range, List.any_eq_true, Bool.and_eq_true, beq_iff_eq, bne_iff_ne, List.mem_flatten]
  constructor
  · rintro ⟨h, e, ⟨r, hr, he⟩, h1, h2⟩; exact ⟨h, r, hr, e, he, h1, h2⟩
  · rintro ⟨h, r, hr, e, he, h1, h2⟩; exact ⟨h, e, ⟨r, hr, he⟩, h1, h2⟩

omit [IsStrictOrderedRing α] [FloorRing α] in
theorem usedColumns_sorted (w : CSR α) : w.usedColumns.Pairwise (· < ·) := List.Pairwise.filter _ List.pairwise_lt_range

/-- One row after the selection. -/
def selectRow (cols : List Nat) (r : List (Nat × α)) : List (Nat × α) := (r.filter fun e => cols.contains e.1).map fun e => (cols.idxOf e.1, e.2)

omit [LinearOrder α] [IsStrictOrderedRing α] [FloorRing α] [Field α] in
theorem selectColumns_eq (rows : List (List (Nat × α))) (n : Nat) (cols : List Nat) :
    (csrOfRows rows n).selectColumns cols = csrOfRows (rows.map (selectRow cols)) cols.length := by
  have : (List.range (csrOfRows rows n).nrows).map (fun i => (((csrOfRows rows n).rowEntries i).filter fun e => cols.contains e.1).map fun e => (cols.idxOf e.1, e.2))
      = rows.map (selectRow cols) := by
    apply List.ext_getElem
    · simp [csrOfRows]
    · intro i h1 h2
      have hi : i < rows.length := by simpa using h2
      simp only [List.getElem_map, List.getElem_range, selectRow]
      rw [csrOfRows_rowEntries (List.getElem?_eq_getElem hi)]
  unfold CSR.selectColumns
  simp only [this]
  simp [csrOfRows]

omit [LinearOrder α] [IsStrictOrderedRing α] [FloorRing α] in
theorem sum_kernel (wts : List α) : ∀ (p q : Nat), ((((List.range' p wts.length).zip wts).filter fun e => e.1 == q).map (·.2)).sum = weightAt wts p q := by
  induction wts with
  | nil => intro p q; simp [weightAt]
  | cons a wts ih =>
    intro p q
    simp only [List.length_cons, List.range'_succ, List.zip_cons_cons]
    by_cases h : p = q
    · subst h
      rw [List.filter_cons_of_pos (by simp), List.map_cons, List.sum_cons, ih]
      simp [weightAt]
    · rw [List.filter_cons_of_neg (by simpa using h), ih]
      unfold weightAt
      by_cases h2 : p + 1 ≤ q
      · obtain ⟨d, rfl⟩ := Nat.exists_eq_add_of_le h2
        rw [if_pos h2, if_pos (by omega), show p + 1 + d - p = d + 1 by omega, List.getD_cons_succ]
        congr 1; omega
      · rw [if_neg h2, if_neg (by omega)]

omit [LinearOrder α] [IsStrictOrderedRing α] [FloorRing α] in
/-- The selected row sums to the same value over a kept column. -/
theorem sum_selectRow {cols : List Nat} (hn : cols.Nodup) (r : List (Nat × α)) {c q : Nat} (hc : cols[c]? = some q) :
    (((selectRow cols r).filter fun e => e.1 == c).map (·.2)).sum = ((r.filter fun e => e.1 == q).map (·.2)).sum := by
  induction r with
  | nil => rfl
  | cons e r ih =>
    unfold selectRow at ih ⊢
    by_cases hq : e.1 = q
    · have hm : e.1 ∈ cols := by rw [hq]; exact List.mem_of_getElem? hc
      have hi : cols.idxOf e.1 = c := by rw [hq]; exact idxOf_of_getElem? hn hc
      rw [List.filter_cons_of_pos (by simpa using hm), List.map_cons, List.filter_cons_of_pos (by simpa using hi), List.filter_cons_of_pos (by simpa using hq)]
      simp only [List.map_cons, List.sum_cons]
      rw [ih]
    · rw [List.filter_cons_of_neg (a := e) (p := fun e => e.1 == q) (by simpa using hq)]
      by_cases hm : e.1 ∈ cols
      · have hi : cols.idxOf e.1 ≠ c := by
          intro h
          apply hq
          have := List.getElem?_idxOf hm
          rw [h, hc] at this
          exact (Option.some.inj this).symm
        rw [List.filter_cons_of_pos (by simpa using hm), List.map_cons, List.filter_cons_of_neg (by simpa using hi), ih]
      · rw [List.filter_cons_of_neg (by simpa using hm), ih]

/-- The matrix made by the generator from positions and weights. -/
theorem rolling_select {pos : List Nat} {wts : List α} (hne : pos ≠ []) (hk : wts ≠ []) :
    ∃ n, rollingCSR pos wts.length (pos.map fun _ => wts) = .ok (csrOfRows (rollingRows pos wts.length (pos.map fun _ => wts)) n) ∧
      (∀ rows' : List (List α), rows'.length = pos.length → (∀ r ∈ rows', r.length = wts.length) →
        rollingCSR pos wts.length rows' = .ok (csrOfRows (rollingRows pos wts.length rows') n)) ∧
      ∀ w0, w0 = csrOfRows (rollingRows pos wts.length (pos.map fun _ => wts)) n →
        (w0.selectColumns w0.usedColumns).RollingAverage pos wts w0.usedColumns := by
  obtain ⟨n, h1, h2, h3⟩ := rollingCSR_ok (rows := pos.map fun _ => wts) hne (List.length_pos_iff.2 hk) (by simp) (by simp)
  refine ⟨n, h1, h3, ?_⟩
  rintro w0 rfl
  set rows := rollingRows pos wts.length (pos.map fun _ => wts) with hrows
  have hsort := usedColumns_sorted (csrOfRows rows n)
  have hget : ∀ (i p : Nat), pos[i]? = some p → rows[i]? = some ((List.range' p wts.length).zip wts) := by
    intro i p hp
    exact rollingRows_get hp (by rw [List.getElem?_map, hp]; rfl)
  have hmem : ∀ (p q : Nat), p ∈ pos → weightAt wts p q ≠ 0 → q ∈ (csrOfRows rows n).usedColumns := by
    intro p q hp hw
    obtain ⟨i, hi⟩ := List.mem_iff_getElem?.1 hp
    unfold weightAt at hw
    split at hw
    · rename_i hpq
      have hlt : q - p < wts.length := by
        by_contra hx
        exact hw (by rw [List.getD_eq_getElem?_getD, List.getElem?_eq_none (by omega)]; rfl)
      refine mem_usedColumns.2 ⟨by have := h2 p hp; omega, _, List.mem_of_getElem? (hget i p hi), (q, wts[q - p]), ?_, rfl, ?_⟩
      · apply List.mem_iff_getElem?.2
        refine ⟨q - p, List.getElem?_zip_eq_some.2 ⟨?_, by simp [hlt]⟩⟩
        rw [List.getElem?_range' (by omega)]
        simp; omega
      · rwa [List.getD_eq_getElem?_getD, List.getElem?_eq_getElem hlt] at hw
    · exact absurd rfl hw
  have hdense : ∀ (i p c q : Nat), pos[i]? = some p → (csrOfRows rows n).usedColumns[c]? = some q →
      ((csrOfRows rows n).selectColumns (csrOfRows rows n).usedColumns).dense i c = weightAt wts p q := by
    intro i p c q hp hq
    rw [selectColumns_eq]
    unfold CSR.dense
    rw [csrOfRows_rowEntries (r := selectRow (csrOfRows rows n).usedColumns ((List.range' p wts.length).zip wts)) (by rw [List.getElem?_map, hget i p hp]; rfl),
      sum_selectRow (hsort.imp (fun h => Nat.ne_of_lt h)) _ hq, sum_kernel]
  refine ⟨by rw [selectColumns_eq]; simp [csrOfRows, hrows, rollingRows], by rw [selectColumns_eq]; rfl, hsort, hdense, hmem, ?_⟩
  intro c hc
  rw [selectColumns_eq] at hc
  simp only [csrOfRows] at hc
  have hq : (csrOfRows rows n).usedColumns[c]? = some (csrOfRows rows n).usedColumns[c] := List.getElem?_eq_getElem hc
  set q := (csrOfRows rows n).usedColumns[c]
  obtain ⟨_, r, hr, e, he, hec, hne0⟩ := mem_usedColumns.1 (List.mem_of_getElem? hq)
  obtain ⟨i, hi⟩ := List.mem_iff_getElem?.1 hr
  have hil : i < pos.length := by
    have := (List.getElem?_eq_some_iff.1 hi).1
    simpa [hrows, rollingRows] using this
  have hp : pos[i]? = some pos[i] := List.getElem?_eq_getElem hil
  have hr' := hget i _ hp
  rw [hi] at hr'
  obtain rfl := Option.some.inj hr'
  refine ⟨i, by rw [selectColumns_eq]; simpa [csrOfRows, hrows, rollingRows] using hil, ?_⟩
  rw [hdense i _ c q hp hq]
  obtain ⟨j, hj⟩ := List.mem_iff_getElem?.1 he
  obtain ⟨j1, j2⟩ := List.getElem?_zip_eq_some.1 hj
  have hjl := (List.getElem?_eq_some_iff.1 j2).1
  rw [List.getElem?_range' hjl] at j1
  have hje : pos[i] + j = q := by
    have := Option.some.inj j1
    rw [← hec]; omega
  unfold weightAt
  rw [if_pos (by omega), show q - pos[i] = j by omega, List.getD_eq_getElem?_getD, j2]
  exact hne0

omit [IsStrictOrderedRing α] [FloorRing α] in
theorem select_shape (rows : List (List (Nat × α))) (cols : List Nat) (n : Nat) : ((csrOfRows rows n).selectColumns cols).Shape ∧ ((csrOfRows rows n).selectColumns cols).WellFormed := by
  rw [selectColumns_eq]
  refine ⟨csrOfRows_shape ?_, csrOfRows_wellFormed _ _⟩
  intro r hr e he
  obtain ⟨r', _, rfl⟩ := List.mem_map.1 hr
  obtain ⟨e', he', rfl⟩ := List.mem_map.1 he
  have := (List.mem_filter.1 he').2
  exact List.idxOf_lt_length_iff.2 (by simpa using this)

/-- The weights the generator uses: those given, or equal ones for the kernel length given, or for the length of the first row of uncertainties. -/
def KernelUnc.Weights (ku : KernelUnc α) (weights : Option (List α)) (size : Option Nat) (wts : List α) : Prop :=
  weights = some wts ∨ (weights = none ∧ ∃ k : Nat, wts = List.replicate k (1 / (k : α)) ∧
    (size = some k ∨ (size = none ∧ ∃ r r0, ku = .rows r ∧ r[0]? = some r0 ∧ r0.length = k)))

omit [LinearOrder α] [IsStrictOrderedRing α] [FloorRing α] in
theorem kernelWeights_ok {ku : KernelUnc α} {weights : Option (List α)} {size : Option Nat} {wts : List α} (h : ku.Weights weights size wts) :
    kernelWeights ku weights size = .ok wts := by
  rcases h with rfl | ⟨rfl, k, rfl, rfl | ⟨rfl, r, r0, rfl, h0, rfl⟩⟩
  · rfl
  · rfl
  · simp [kernelWeights, pyGet, h0, bind, Except.bind, pure, Except.pure]

/-- Uncertainties the generator can use: one Python float, or a row of the kernel's length for every match-up. -/
def KernelUnc.Usable (ku : KernelUnc α) (m k : Nat) : Prop :=
  match ku with
  | .float _ => True
  | .scalar _ => False
  | .rows r => m ≤ r.length ∧ ∀ (i : Nat) (x : List α), i < m → r[i]? = some x → x.length = k

/-- The generator, given the positions. -/
theorem generate_eq {times : List α} {s : α} {ku : KernelUnc α} {weights : Option (List α)} {size : Option Nat} {wts : List α} {pos : List Nat}
    (hw : ku.Weights weights size wts) (hk : wts ≠ []) (hp : columnPositions s times = .ok pos) (hne : pos ≠ []) (hu : ku.Usable pos.length wts.length) :
    ∃ w0 : CSR α, ∃ n, w0 = csrOfRows (rollingRows pos wts.length (pos.map fun _ => wts)) n ∧ (w0.selectColumns w0.usedColumns).RollingAverage pos wts w0.usedColumns ∧
      ∃ u, generateRollingAverage times s ku weights size = .ok (w0.selectColumns w0.usedColumns, u) ∧ 
        match ku with
        | .float a => u = List.replicate w0.usedColumns.length a
        | .scalar _ => False
        | .rows r => u = ((csrOfRows (rollingRows pos wts.length (r.take pos.length)) n).selectColumns w0.usedColumns).columnMax := by
  obtain ⟨n, h1, h2, h3⟩ := rolling_select (pos := pos) (wts := wts) hne hk
  refine ⟨_, n, rfl, h3 _ rfl, ?_⟩
  cases ku with
  | float a =>
    refine ⟨_, bind_ok.2 ⟨_, kernelWeights_ok hw, bind_ok.2 ⟨_, hp, bind_ok.2 ⟨_, h1, rfl⟩⟩⟩, ?_⟩
    rw [mul_one, selectColumns_eq]; rfl
  | scalar a => exact hu.elim
  | rows r =>
    have hm : (List.range pos.length).mapM (pyGet r) = .ok (r.take pos.length) := by
      rw [mapM_ok_of (g := fun i => r.getD i [])]
      · congr 1
        apply List.ext_getElem
        · simp [hu.1]
        · intro i h1 h2
          have : i < r.length := by simp at h2; omega
          simp [List.getD, this]
      · intro i hi
        have : i < r.length := by have := hu.1; simp at hi; omega
        simp [pyGet, List.getD, this]
    have hr := h2 (r.take pos.length) (by simp [hu.1]) (by
      intro x hx
      obtain ⟨i, hi⟩ := List.mem_iff_getElem?.1 hx
      rw [List.getElem?_take] at hi
      split at hi
      · exact hu.2 i x (by assumption) hi
      · exact absurd hi (by simp))
    exact ⟨_, bind_ok.2 ⟨_, kernelWeights_ok hw, bind_ok.2 ⟨_, hp, bind_ok.2 ⟨_, h1, bind_ok.2 ⟨_, hm, bind_ok.2 ⟨_, hr, rfl⟩⟩⟩⟩⟩, rfl⟩

/-- **C56.** For match-ups at any times, scan lines longer than 0.01, a kernel of at least one weight and usable uncertainties, the generator returns a well-formed CSR
matrix that averages, with the given weights, consecutive scan lines starting at the scan line of each match-up; every column is used; and the u vector has one entry per
column. -/
theorem C56_valid {times : List α} {s : α} {ku : KernelUnc α} {weights : Option (List α)} {size : Option Nat} {wts : List α}
    (ht : times ≠ []) (hs : 1 / 100 < s) (hw : ku.Weights weights size wts) (hk : wts ≠ []) (hu : ku.Usable times.length wts.length) :
    ∃ w u pos scan, generateRollingAverage times s ku weights size = .ok (w, u) ∧ ScanLines s times pos ∧ w.WellFormed ∧ w.Shape ∧
      w.RollingAverage pos wts scan ∧ u.length = w.ncols := by
  obtain ⟨pos, hp, hsl⟩ := columnPositions_ok hs ht
  have hl := hsl.length
  have hne : pos ≠ [] := by rintro rfl; exact ht (List.length_eq_zero_iff.1 (by simpa using hl.symm))
  rw [← hl] at hu
  obtain ⟨w0, n, rfl, hra, u, hg, hu'⟩ := generate_eq hw hk hp hne hu
  refine ⟨_, u, pos, _, hg, hsl, (select_shape _ _ _).2, (select_shape _ _ _).1, hra, ?_⟩
  cases ku with
  | float a => rw [hu', selectColumns_eq]; simp [csrOfRows]
  | scalar a => exact hu'.elim
  | rows r => rw [hu', selectColumns_eq, selectColumns_eq]; simp [CSR.columnMax, csrOfRows]

/-! ### Uncertainties and covariance -/

omit [FloorRing α] in
theorem columnMax_const {w : CSR α} {c : Nat} {v : α} (hc : c < w.ncols) (hv : 0 ≤ v) (h : ∀ i, i < w.nrows → ∀ e ∈ w.rowEntries i, e.1 = c → e.2 = v)
    (hex : ∃ i, i < w.nrows ∧ ∃ e ∈ w.rowEntries i, e.1 = c) : w.columnMax[c]? = some v := by
  have hall : ∀ x ∈ ((List.range w.nrows).flatMap w.rowEntries).filterMap (fun e => if e.1 = c then some e.2 else none), x = v := by
    intro x hx
    obtain ⟨e, he, hex⟩ := List.mem_filterMap.1 hx
    obtain ⟨i, hi, he⟩ := List.mem_flatMap.1 he
    split at hex
    · rename_i h1
      rw [← Option.some.inj hex]
      exact h i (by simpa using hi) e he h1
    · exact absurd hex (by simp)
  have hne : ((List.range w.nrows).flatMap w.rowEntries).filterMap (fun e => if e.1 = c then some e.2 else none) ≠ [] := by
    obtain ⟨i, hi, e, he, hec⟩ := hex
    apply List.ne_nil_of_mem (a := e.2)
    exact List.mem_filterMap.2 ⟨e, List.mem_flatMap.2 ⟨i, by simpa using hi, he⟩, by simp [hec]⟩
  unfold CSR.columnMax
  rw [List.getElem?_map, List.getElem?_range hc, Option.map_some]
  congr 1
  generalize ((List.range w.nrows).flatMap w.rowEntries).filterMap (fun e => if e.1 = c then some e.2 else none) = vs at hall hne
  obtain ⟨x, xs, rfl⟩ := List.exists_cons_of_ne_nil hne
  have hf : xs.foldl max x = v := by
    have hx := hall x (by simp)
    have : ∀ (xs : List α), (∀ y ∈ xs, y = v) → xs.foldl max v = v := by
      intro xs
      induction xs with
      | nil => intro _; rfl
      | cons y ys ih => intro hy; rw [List.foldl_cons, hy y (by simp), max_self]; exact ih fun z hz => hy z (by simp [hz])
    rw [hx]
    exact this xs fun y hy => hall y (by simp [hy])
  simp only [hf, max_eq_left hv, ite_self]

/-- The uncertainty of scan line `q` is `u0 q`: the float given, or, for rows, every row gives its scan lines these uncertainties. -/
def KernelUnc.Describes (ku : KernelUnc α) (pos : List Nat) (k : Nat) (u0 : Nat → α) : Prop :=
  match ku with
  | .float a => ∀ q, u0 q = a
  | .scalar _ => False
  | .rows r => (∀ q, 0 ≤ u0 q) ∧ ∀ (i p j : Nat), pos[i]? = some p → j < k → ∃ x, r[i]? = some x ∧ x[j]? = some (u0 (p + j))

theorem generate_u {times : List α} {s : α} {ku : KernelUnc α} {weights : Option (List α)} {size : Option Nat} {wts : List α} {pos : List Nat} {u0 : Nat → α}
    (hw : ku.Weights weights size wts) (hk : wts ≠ []) (hp : columnPositions s times = .ok pos) (hne : pos ≠ []) (hu : ku.Usable pos.length wts.length)
    (hd : ku.Describes pos wts.length u0) :
    ∃ w u scan, generateRollingAverage times s ku weights size = .ok (w, u) ∧ w.WellFormed ∧ w.Shape ∧ w.RollingAverage pos wts scan ∧ u = scan.map u0 := by
  obtain ⟨w0, n, rfl, hra, u, hg, hu'⟩ := generate_eq hw hk hp hne hu
  refine ⟨_, u, _, hg, (select_shape _ _ _).2, (select_shape _ _ _).1, hra, ?_⟩
  cases ku with
  | float a =>
    rw [hu']
    apply List.ext_getElem
    · simp
    · intro i h1 h2
      simp only [List.getElem_replicate, List.getElem_map]
      exact (hd _).symm
  | scalar a => exact hu'.elim
  | rows r =>
    set w0 := csrOfRows (rollingRows pos wts.length (pos.map fun _ => wts)) n with hw0
    have hlr : (r.take pos.length).length = pos.length := by simp [hu.1]
    have hnd : w0.usedColumns.Nodup := (usedColumns_sorted w0).imp (fun h => Nat.ne_of_lt h)
    have hrow : ∀ (i p : Nat), pos[i]? = some p → ∃ x, x.length = wts.length ∧ (∀ j, j < wts.length → x[j]? = some (u0 (p + j))) ∧
        ((csrOfRows (rollingRows pos wts.length (r.take pos.length)) n).selectColumns w0.usedColumns).rowEntries i =
          selectRow w0.usedColumns ((List.range' p wts.length).zip x) := by
      intro i p hi
      have hil := (List.getElem?_eq_some_iff.1 hi).1
      obtain ⟨x, hx, _⟩ := hd.2 i p 0 hi (List.length_pos_iff.2 hk)
      refine ⟨x, hu.2 i x hil hx, ?_, ?_⟩
      · intro j hj
        obtain ⟨x', hx', hj'⟩ := hd.2 i p j hi hj
        rw [hx] at hx'
        rw [Option.some.inj hx']; exact hj'
      · rw [selectColumns_eq]
        apply csrOfRows_rowEntries
        rw [List.getElem?_map, rollingRows_get hi (r := x) (by rw [List.getElem?_take, if_pos hil]; exact hx)]
        rfl
    rw [hu']
    have hlen : ((csrOfRows (rollingRows pos wts.length (r.take pos.length)) n).selectColumns w0.usedColumns).ncols = w0.usedColumns.length := by
      rw [selectColumns_eq]; rfl
    have hnr : ((csrOfRows (rollingRows pos wts.length (r.take pos.length)) n).selectColumns w0.usedColumns).nrows = pos.length := by
      rw [selectColumns_eq]; simp only [csrOfRows, List.length_map]; exact rollingRows_length hlr
    apply List.ext_getElem?
    intro c
    by_cases hc : c < w0.usedColumns.length
    · have hq : w0.usedColumns[c]? = some w0.usedColumns[c] := List.getElem?_eq_getElem hc
      set q := w0.usedColumns[c]
      rw [List.getElem?_map, hq, Option.map_some]
      apply columnMax_const (by rw [hlen]; exact hc) (hd.1 q)
      · intro i hi e he hec
        rw [hnr] at hi
        obtain ⟨x, hx1, hx2, hx3⟩ := hrow i pos[i] (List.getElem?_eq_getElem hi)
        rw [hx3] at he
        obtain ⟨e', he', rfl⟩ := List.mem_map.1 he
        obtain ⟨hz, hm⟩ := List.mem_filter.1 he'
        have hm' : e'.1 ∈ w0.usedColumns := by simpa using hm
        have hq' : e'.1 = q := by
          have := List.getElem?_idxOf hm'
          simp only at hec
          rw [hec, hq] at this
          exact (Option.some.inj this).symm
        obtain ⟨j, hj⟩ := List.mem_iff_getElem?.1 hz
        obtain ⟨j1, j2⟩ := List.getElem?_zip_eq_some.1 hj
        have hjl := (List.getElem?_eq_some_iff.1 j2).1
        rw [List.getElem?_range' (by omega)] at j1
        rw [hx2 j (by omega)] at j2
        simp only
        rw [← Option.some.inj j2]
        have := Option.some.inj j1
        congr 1; omega
      · obtain ⟨i, hi, hdn⟩ := hra.used c (by rw [← hra.cols]; exact hc)
        rw [hra.rows] at hi
        have hpi : pos[i]? = some pos[i] := List.getElem?_eq_getElem hi
        rw [hra.weight i _ c q hpi hq] at hdn
        have hpq : pos[i] ≤ q ∧ q - pos[i] < wts.length := by
          unfold weightAt at hdn
          split at hdn
          · refine ⟨by assumption, ?_⟩
            by_contra hx
            exact hdn (by rw [List.getD_eq_getElem?_getD, List.getElem?_eq_none (by omega)]; rfl)
          · exact absurd rfl hdn
        obtain ⟨x, hx1, hx2, hx3⟩ := hrow i pos[i] hpi
        refine ⟨i, by rw [hnr]; exact hi, (c, u0 q), ?_, rfl⟩
        rw [hx3]
        refine List.mem_map.2 ⟨(q, u0 q), List.mem_filter.2 ⟨?_, by simpa using List.mem_of_getElem? hq⟩, ?_⟩
        · apply List.mem_iff_getElem?.2
          refine ⟨q - pos[i], List.getElem?_zip_eq_some.2 ⟨?_, ?_⟩⟩
          · rw [List.getElem?_range' hpq.2]; simp; omega
          · rw [hx2 _ hpq.2]
            simp only [Option.some.injEq]
            congr 1; omega
        · simp only [Prod.mk.injEq, and_true]
          exact idxOf_of_getElem? hnd hq
    · rw [List.getElem?_eq_none (by simp only [CSR.columnMax, List.length_map, List.length_range]; omega), List.getElem?_eq_none (by simpa using hc)]

omit [LinearOrder α] [IsStrictOrderedRing α] [FloorRing α] in
theorem weightAt_out {wts : List α} {p q : Nat} (h : weightAt wts p q ≠ 0) : p ≤ q ∧ q < p + wts.length := by
  unfold weightAt at h
  split at h
  · refine ⟨by assumption, ?_⟩
    by_contra hx
    exact h (by rw [List.getD_eq_getElem?_getD, List.getElem?_eq_none (by omega)]; rfl)
  · exact absurd rfl h

omit [LinearOrder α] [IsStrictOrderedRing α] [FloorRing α] in
/-- The covariance a rolling-average matrix and the uncertainties of its scan lines stand for. -/
theorem CSR.RollingAverage.covariance {w : CSR α} {pos : List Nat} {wts : List α} {scan : List Nat} (h : w.RollingAverage pos wts scan) (u0 : Nat → α)
    {i i' p p' : Nat} (hi : pos[i]? = some p) (hi' : pos[i']? = some p') :
    ∑ c ∈ Finset.range w.ncols, w.dense i c * w.dense i' c * ((scan.map u0).getD c 0) ^ 2 =
      ∑ j ∈ Finset.range wts.length, wts.getD j 0 * weightAt wts p' (p + j) * u0 (p + j) ^ 2 := by
  have hnd : scan.Nodup := h.increasing.imp (fun h => Nat.ne_of_lt h)
  set g : Nat → α := fun q => weightAt wts p q * weightAt wts p' q * u0 q ^ 2 with hg
  have e1 : ∑ c ∈ Finset.range w.ncols, w.dense i c * w.dense i' c * ((scan.map u0).getD c 0) ^ 2 = ∑ q ∈ scan.toFinset, g q := by
    rw [List.sum_toFinset g hnd, ← h.cols, ← list_sum_range]
    congr 1
    apply List.ext_getElem
    · simp
    · intro c h1 h2
      have hc : c < scan.length := by simpa using h2
      have hq : scan[c]? = some scan[c] := List.getElem?_eq_getElem hc
      simp only [List.getElem_map, List.getElem_range, hg]
      rw [h.weight i p c _ hi hq, h.weight i' p' c _ hi' hq, List.getD_eq_getElem?_getD, List.getElem?_map, hq]
      rfl
  have e2 : ∑ j ∈ Finset.range wts.length, wts.getD j 0 * weightAt wts p' (p + j) * u0 (p + j) ^ 2 = ∑ q ∈ Finset.Ico p (p + wts.length), g q := by
    rw [Finset.sum_Ico_eq_sum_range]
    simp only [Nat.add_sub_cancel_left, hg]
    apply Finset.sum_congr rfl
    intro j _
    congr 2
    simp [weightAt]
  have hz : ∀ q, weightAt wts p q = 0 → g q = 0 := by intro q hq; simp [hg, hq]
  rw [e1, e2, Finset.sum_subset (s₁ := scan.toFinset) (s₂ := scan.toFinset ∪ Finset.Ico p (p + wts.length)) Finset.subset_union_left,
    Finset.sum_subset (s₁ := Finset.Ico p (p + wts.length)) (s₂ := scan.toFinset ∪ Finset.Ico p (p + wts.length)) Finset.subset_union_right]
  · intro q _ hq
    apply hz
    by_contra hx
    exact hq (Finset.mem_Ico.2 (weightAt_out hx))
  · intro q _ hq
    apply hz
    by_contra hx
    exact hq (List.mem_toFinset.2 (h.complete p q (List.mem_of_getElem? hi) hx))

/-- **C56, covariance.** If scan line `q` has uncertainty `u0 q`, the matrix and the u vector returned give averages `i` and `i'` the covariance of two averages of
independent scan lines: the scan lines they share, with both weights and the variance of the line. -/
theorem C56_covariance {times : List α} {s : α} {ku : KernelUnc α} {weights : Option (List α)} {size : Option Nat} {wts : List α} (ht : times ≠ []) (hs : 1 / 100 < s)
    (hw : ku.Weights weights size wts) (hk : wts ≠ []) (hu : ku.Usable times.length wts.length) :
    ∃ pos, ScanLines s times pos ∧ ∀ u0 : Nat → α, ku.Describes pos wts.length u0 →
      ∃ w u, generateRollingAverage times s ku weights size = .ok (w, u) ∧ ∀ (i i' p p' : Nat), pos[i]? = some p → pos[i']? = some p' →
        ∑ c ∈ Finset.range w.ncols, w.dense i c * w.dense i' c * (u.getD c 0) ^ 2 =
          ∑ j ∈ Finset.range wts.length, wts.getD j 0 * weightAt wts p' (p + j) * u0 (p + j) ^ 2 := by
  obtain ⟨pos, hp, hsl⟩ := columnPositions_ok hs ht
  have hl := hsl.length
  have hne : pos ≠ [] := by rintro rfl; exact ht (List.length_eq_zero_iff.1 (by simpa using hl.symm))
  refine ⟨pos, hsl, fun u0 hd => ?_⟩
  obtain ⟨w, u, scan, hg, _, _, hra, rfl⟩ := generate_u hw hk hp hne (by rw [hl]; exact hu) hd
  exact ⟨w, _, hg, fun i i' p p' hi hi' => hra.covariance u0 hi hi'⟩

/-! ### Round trip through the file, and use by the solver -/

/-- **C56, file.** The matrix and vector returned, written into a match-up file with any other matrices of as many rows, are opened again unchanged. -/
theorem C56_roundtrip {times : List α} {s : α} {ku : KernelUnc α} {weights : Option (List α)} {size : Option Nat} {wts : List α} {w : CSR α} {u : List α}
    (ht : times ≠ []) (hs : 1 / 100 < s) (hw : ku.Weights weights size wts) (hk : ∃ a ∈ wts, a ≠ 0) (hu : ku.Usable times.length wts.length)
    (hg : generateRollingAverage times s ku weights size = .ok (w, u)) :
    ∃ v, returnWMatrixVariables [w] [u] = .ok v ∧ ∀ d : Dataset α, openW (d.withW v) 1 = .ok w ∧ openU (d.withW v) 1 = .ok u := by
  obtain ⟨a, ha, ha0⟩ := hk
  obtain ⟨w', u', pos, scan, hg', hsl, hwf, hsh, hra, hul⟩ := C56_valid ht hs hw (List.ne_nil_of_mem ha) hu
  rw [hg] at hg'
  obtain ⟨rfl, rfl⟩ := Prod.mk.inj (Except.ok.inj hg')
  obtain ⟨j, hj⟩ := List.mem_iff_getElem?.1 ha
  have hscan : scan ≠ [] := by
    apply List.ne_nil_of_mem
    refine hra.complete 0 j hsl.zero ?_
    rw [weightAt, if_pos (Nat.zero_le _), Nat.sub_zero, List.getD_eq_getElem?_getD, hj]
    exact ha0
  have hpos : 0 < w.ncols := by rw [← hra.cols]; exact List.length_pos_iff.2 hscan
  have hmem : ∀ c, c < w.ncols → c ∈ w.indices := by
    intro c hc
    obtain ⟨i, hi, hdn⟩ := hra.used c hc
    have : ∃ e ∈ w.rowEntries i, e.1 = c := by
      by_contra hx
      apply hdn
      unfold CSR.dense
      rw [List.filter_eq_nil_iff.2]
      · rfl
      · intro e he hec
        exact hx ⟨e, he, by simpa using hec⟩
    obtain ⟨e, he, rfl⟩ := this
    have : e.1 ∈ w.rowCols i := by rw [← hsh.entries_fst]; exact List.mem_map.2 ⟨e, he, rfl⟩
    unfold CSR.rowCols slice at this
    exact List.mem_of_mem_drop (List.mem_of_mem_take this)
  have hdata : w.data ≠ [] := by
    have h0 := hmem 0 hpos
    intro hx
    have := hsh.data
    rw [hx] at this
    rw [List.length_eq_zero_iff.1 this.symm] at h0
    exact absurd h0 (by simp)
  obtain ⟨v, hv, hd⟩ := C09_w_u_roundtrip [w] [u] w.nrows (by simp) (by simpa using ⟨hwf, hdata⟩)
  refine ⟨v, hv, fun d => ?_⟩
  obtain ⟨h1, h2⟩ := hd d
  obtain ⟨c, hc, hmax, ho⟩ := h1 0 w rfl
  refine ⟨?_, h2 0 u rfl⟩
  rw [ho]
  have e1 := hsh.cols c hc
  have e2 := hmax (w.ncols - 1) (hmem _ (by omega))
  have : c + 1 = w.ncols := by omega
  rw [this]

omit [FloorRing α] in
/-- Match-ups more than one scan line apart start at increasing scan lines. -/
theorem ScanLines.increasing {s : α} {times : List α} {pos : List Nat} (h : ScanLines s times pos) (hs : 0 < s) (ht : times.Pairwise fun a b => a + s < b) :
    pos.Pairwise (· < ·) := by
  rw [List.pairwise_iff_getElem]
  intro i j hi hj hij
  have hi' : i < times.length := by rw [← h.length]; exact hi
  have hj' : j < times.length := by rw [← h.length]; exact hj
  have hlt := List.pairwise_iff_getElem.1 ht i j hi' hj' hij
  have a1 := abs_le.1 (h.near i _ _ _ _ (List.getElem?_eq_getElem hi') (List.getElem?_eq_getElem hi) (List.getElem?_eq_getElem (by omega)) (List.getElem?_eq_getElem (by omega)))
  have a2 := abs_le.1 (h.near j _ _ _ _ (List.getElem?_eq_getElem hj') (List.getElem?_eq_getElem hj) (List.getElem?_eq_getElem (by omega)) (List.getElem?_eq_getElem (by omega)))
  have hgap : (times[i] - times[0]) / s + (1 : α) < (times[j] - times[0]) / s := by
    rw [← sub_pos]
    have : (times[j] - times[0]) / s - ((times[i] - times[0]) / s + (1 : α)) = (times[j] - (times[i] + s)) / s := by field_simp; ring
    rw [this]
    exact div_pos (by linarith) hs
  have : (pos[i] : α) < pos[j] := by linarith [a1.1, a1.2, a2.1, a2.2]
  exact_mod_cast this

/-- **C56, solver.** For match-ups in time order, more than one scan line apart, and positive weights adding up to one, the matrix returned is one whose averages
the solver can decompose (the condition of C24 and C57 on W matrices). -/
theorem C56_sequential {times : List α} {s : α} {ku : KernelUnc α} {weights : Option (List α)} {size : Option Nat} {wts : List α} {w : CSR α} {u : List α}
    (ht : times ≠ []) (hord : times.Pairwise fun a b => a + s < b) (hs : 1 / 100 < s) (hw : ku.Weights weights size wts) (hpos : ∀ a ∈ wts, 0 < a) (hsum : wts.sum = 1)
    (hu : ku.Usable times.length wts.length) (hg : generateRollingAverage times s ku weights size = .ok (w, u)) : w.Sequential := by
  have hk : wts ≠ [] := by rintro rfl; simp at hsum
  obtain ⟨pos, hp, hsl⟩ := columnPositions_ok hs ht
  have hl := hsl.length
  have hne : pos ≠ [] := by rintro rfl; exact ht (List.length_eq_zero_iff.1 (by simpa using hl.symm))
  rw [← hl] at hu
  obtain ⟨w0, n, hw0, hra, u', hg', _⟩ := generate_eq hw hk hp hne hu
  rw [hg] at hg'
  obtain ⟨rfl, _⟩ := Prod.mk.inj (Except.ok.inj hg')
  have hinc := hsl.increasing (by linarith) hord
  have hnd : w0.usedColumns.Nodup := (usedColumns_sorted w0).imp (fun h => Nat.ne_of_lt h)
  have hcol : ∀ (p j : Nat), p ∈ pos → j < wts.length → p + j ∈ w0.usedColumns := by
    intro p j hp hj
    refine hra.complete p _ hp ?_
    rw [weightAt, if_pos (by omega), Nat.add_sub_cancel_left, List.getD_eq_getElem?_getD, List.getElem?_eq_getElem hj]
    exact (hpos _ (List.getElem_mem hj)).ne'
  have hrow : ∀ (i p : Nat), pos[i]? = some p → (w0.selectColumns w0.usedColumns).rowEntries i =
      ((List.range' p wts.length).zip wts).map fun e => (w0.usedColumns.idxOf e.1, e.2) := by
    intro i p hi
    have : w0.selectColumns w0.usedColumns = csrOfRows ((rollingRows pos wts.length (pos.map fun _ => wts)).map (selectRow w0.usedColumns)) w0.usedColumns.length := by
      conv_lhs => rw [hw0]
      rw [selectColumns_eq, ← hw0]
    rw [this]
    rw [csrOfRows_rowEntries (r := selectRow w0.usedColumns ((List.range' p wts.length).zip wts))]
    · unfold selectRow
      rw [List.filter_eq_self.2]
      intro e he
      obtain ⟨h1, h2⟩ := List.of_mem_zip he
      rw [List.mem_range'_1] at h1
      have := hcol p (e.1 - p) (List.mem_of_getElem? hi) (by omega)
      rw [show p + (e.1 - p) = e.1 by omega] at this
      simpa using this
    · rw [List.getElem?_map, rollingRows_get hi (r := wts) (by rw [List.getElem?_map, hi]; rfl)]
      rfl
  intro i hi
  rw [hra.rows] at hi
  have hpi : pos[i]? = some pos[i] := List.getElem?_eq_getElem hi
  set E := (w0.selectColumns w0.usedColumns).rowEntries i with hE
  have hEv : E.map (·.2) = wts := by
    rw [hE, hrow i _ hpi, List.map_map]
    have : ((fun x : Nat × α => x.2) ∘ fun e : Nat × α => (w0.usedColumns.idxOf e.1, e.2)) = fun e => e.2 := rfl
    rw [this, List.map_snd_zip (by simp)]
  by_cases hf : (w0.selectColumns w0.usedColumns).freshEntries i = E
  · exact .inl ⟨hf, by rw [hEv]; exact hsum⟩
  · refine .inr ⟨hf, ?_⟩
    apply ne_of_gt
    have hsub : ∀ x ∈ ((w0.selectColumns w0.usedColumns).freshEntries i).map (·.2), 0 < x := by
      intro x hx
      apply hpos
      rw [← hEv]
      obtain ⟨e, he, rfl⟩ := List.mem_map.1 hx
      exact List.mem_map.2 ⟨e, (List.mem_filter.1 he).1, rfl⟩
    apply List.sum_pos _ hsub
    have hkp := List.length_pos_iff.2 hk
    have hlast : (w0.usedColumns.idxOf (pos[i] + (wts.length - 1)), wts[wts.length - 1]) ∈ (w0.selectColumns w0.usedColumns).freshEntries i := by
      refine List.mem_filter.2 ⟨?_, ?_⟩
      · rw [hrow i _ hpi]
        refine List.mem_map.2 ⟨(pos[i] + (wts.length - 1), wts[wts.length - 1]), ?_, rfl⟩
        apply List.mem_iff_getElem?.2
        refine ⟨wts.length - 1, List.getElem?_zip_eq_some.2 ⟨?_, List.getElem?_eq_getElem (by omega)⟩⟩
        rw [List.getElem?_range' (by omega)]; simp
      · simp only [Bool.not_eq_true', List.any_eq_false, List.mem_range, beq_iff_eq]
        intro j hj hx
        rw [List.any_eq_true] at hx
        obtain ⟨e, he, heq⟩ := hx
        have hpj : pos[j]? = some pos[j] := List.getElem?_eq_getElem (by omega)
        rw [hrow j _ hpj] at he
        obtain ⟨e', he', rfl⟩ := List.mem_map.1 he
        have h1 := (List.of_mem_zip he').1
        rw [List.mem_range'_1] at h1
        have hm : e'.1 ∈ w0.usedColumns := by
          have := hcol pos[j] (e'.1 - pos[j]) (List.mem_of_getElem? hpj) (by omega)
          rwa [show pos[j] + (e'.1 - pos[j]) = e'.1 by omega] at this
        have h2 := List.getElem?_idxOf hm
        have h3 := List.getElem?_idxOf (hcol pos[i] (wts.length - 1) (List.mem_of_getElem? hpi) (by omega))
        have heq' : w0.usedColumns.idxOf e'.1 = w0.usedColumns.idxOf (pos[i] + (wts.length - 1)) := by simpa using heq
        rw [heq', h3] at h2
        have := Option.some.inj h2
        have hlt : pos[j] < pos[i] := List.pairwise_iff_getElem.1 hinc j i (by omega) hi hj
        omega
    exact List.ne_nil_of_mem (List.mem_map.2 ⟨_, hlast, rfl⟩)

/-! ### Cases -/

/-- Three match-ups, scan lines of 1/2 second, the second and third two and one lines after the one before; kernel of three equal weights. -/
theorem C56_case : generateRollingAverage (α := ℚ) [10, 11, 23/2] (1/2) (.float 5) none (some 3) =
      .ok ({ data := [1/3, 1/3, 1/3, 1/3, 1/3, 1/3, 1/3, 1/3, 1/3], indices := [0, 1, 2, 2, 3, 4, 3, 4, 5], indptr := [0, 3, 6, 9], nrows := 3, ncols := 6 }, [5, 5, 5, 5, 5, 5]) ∧
    generateRollingAverage (α := ℚ) [10, 11, 23/2] (1/2) (.rows [[1, 2, 3], [3, 4, 5], [4, 5, 6]]) none none =
      .ok ({ data := [1/3, 1/3, 1/3, 1/3, 1/3, 1/3, 1/3, 1/3, 1/3], indices := [0, 1, 2, 2, 3, 4, 3, 4, 5], indptr := [0, 3, 6, 9], nrows := 3, ncols := 6 }, [1, 2, 3, 4, 5, 6]) := by
  constructor <;> decide +kernel

/-- The hypotheses of C56_valid, C56_covariance, C56_roundtrip, and (for scan lines of 1/3 second) C56_sequential. -/
theorem C56_case_hyps : (KernelUnc.rows [[1, 2, 3], [3, 4, 5], [4, 5, 6]] : KernelUnc ℚ).Weights none none [1/3, 1/3, 1/3] ∧
    (KernelUnc.rows [[1, 2, 3], [3, 4, 5], [4, 5, 6]] : KernelUnc ℚ).Usable [10, 11, (23/2 : ℚ)].length 3 ∧
    (KernelUnc.rows [[1, 2, 3], [3, 4, 5], [4, 5, 6]] : KernelUnc ℚ).Describes [0, 2, 3] 3 (fun q => q + 1) ∧
    [10, 11, (25/2 : ℚ)].Pairwise (fun a b => a + 1/3 < b) ∧ ([1/3, 1/3, 1/3] : List ℚ).sum = 1 := by
  refine ⟨.inr ⟨rfl, 3, by norm_num [List.replicate], .inr ⟨rfl, _, _, rfl, rfl, rfl⟩⟩, ⟨by decide, ?_⟩, ⟨fun q => by positivity, ?_⟩, by norm_num, by norm_num⟩
  · intro i x hi hx
    match i, hi with
    | 0, _ => simp at hx; subst hx; rfl
    | 1, _ => simp at hx; subst hx; rfl
    | 2, _ => simp at hx; subst hx; rfl
  · intro i p j hi hj
    match i, j, hj with
    | 0, 0, _ | 0, 1, _ | 0, 2, _ | 1, 0, _ | 1, 1, _ | 1, 2, _ | 2, 0, _ | 2, 1, _ | 2, 2, _ => simp at hi; subst hi; norm_num
    | i + 3, _, _ => simp at hi

/-- Excluded point 1: with scan lines shorter than 0.01 the match-ups are put on wrong lines: here lines 0 and 4 are taken to be the same. -/
theorem C56_short_scanline_fails : generateRollingAverage (α := ℚ) [0, 4/1000] (1/1000) (.float 5) (some [1/2, 1/2]) none =
    .ok ({ data := [1/2, 1/2, 1/2, 1/2], indices := [0, 1, 0, 1], indptr := [0, 2, 4], nrows := 2, ncols := 2 }, [5, 5]) := by decide +kernel

/-- Excluded point 2: two match-ups of one scan line give a matrix whose averages cannot be decomposed. -/
theorem C56_same_scanline_fails : ∃ w u, generateRollingAverage (α := ℚ) [0, 1/4] 1 (.float 5) (some [1/2, 1/2]) none = .ok (w, u) ∧ ¬ w.Sequential := by
  refine ⟨{ data := [1/2, 1/2, 1/2, 1/2], indices := [0, 1, 0, 1], indptr := [0, 2, 4], nrows := 2, ncols := 2 }, [5, 5], by decide +kernel, ?_⟩
  intro h
  rcases h 1 (by decide) with ⟨h1, _⟩ | ⟨_, h2⟩
  · exact absurd h1 (by decide +kernel)
  · exact h2 (by decide +kernel)

/-- Excluded point 3: a numpy or integer scalar is not taken for one uncertainty; no match-ups; an empty kernel. -/
theorem C56_refused (u : α) (s : α) (wts : List α) : generateRollingAverage [0] s (.scalar u) (some wts) none = .error .typeError ∨ wts = [] := by
  by_cases h : wts = []
  · exact .inr h
  · left
    obtain ⟨n, h1, _⟩ := rolling_select (pos := [0]) (wts := wts) (by simp) h
    have hp : columnPositions s [(0 : α)] = .ok [0] := by rfl
    unfold generateRollingAverage
    simp only [kernelWeights, hp, bind, Except.bind]
    rw [h1]

theorem C56_empty (s : α) (ku : KernelUnc α) (wts : List α) : generateRollingAverage [] s ku (some wts) none = .error .valueError := by rfl

end Verif
