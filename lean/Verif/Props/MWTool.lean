import Verif.Model.MWTool
import Verif.Props.WGen
import Verif.Spec.Checker
import Verif.Props.Transform
/-
Property C68: the microwave tool writes readable files.
-/
set_option autoImplicit false
namespace Verif
variable {α : Type} [Field α] [LinearOrder α] [IsStrictOrderedRing α] [FloorRing α]

/-- With one uncertainty for all scan lines, the matrix does not depend on it. -/
theorem generate_float {times : List α} {s : α} {wts : List α} (ht : times ≠ []) (hs : 1 / 100 < s) (hk : wts ≠ []) :
    ∃ w pos scan, ScanLines s times pos ∧ w.WellFormed ∧ w.Shape ∧ w.RollingAverage pos wts scan ∧
      ∀ a : α, generateRollingAverage times s (.float a) (some wts) none = .ok (w, List.replicate w.ncols a) := by
  obtain ⟨pos, hp, hsl⟩ := columnPositions_ok hs ht
  have hl := hsl.length
  have hne : pos ≠ [] := by rintro rfl; exact ht (List.length_eq_zero_iff.1 (by simpa using hl.symm))
  obtain ⟨n, h1, h2, h3⟩ := rolling_select (pos := pos) (wts := wts) hne hk
  refine ⟨_, pos, _, hsl, (select_shape _ _ _).2, (select_shape _ _ _).1, h3 _ rfl, fun a => ?_⟩
  refine bind_ok.2 ⟨_, (rfl : kernelWeights (.float a) (some wts) none = .ok wts), bind_ok.2 ⟨_, hp, bind_ok.2 ⟨_, h1, ?_⟩⟩⟩
  show Except.ok (_, List.replicate _ (a * 1)) = _
  rw [mul_one]

/-- What the file written by the tool holds for column `c` of a side, if the column is averaged: a W matrix that averages with the microwave kernel over the scan lines
of the match-ups at `times`, and a u vector with the uncertainty `v` for every column of it. -/
def Dataset.HoldsAverage (d : Dataset α) (s : Side α) (c : Nat) (times : List α) (v : α) : Prop :=
  ∃ W pos scan, openW d (s.wUse c) = .ok W ∧ openU d (s.uUse c) = .ok (List.replicate W.ncols v) ∧ W.Shape ∧ W.nrows = d.M ∧
    ScanLines (8 / 3) times pos ∧ W.RollingAverage pos mwWeights scan

/-- What the tool makes of side `s0`: side `s`. Names, values and systematic uncertainties stay. An averaged column has its random uncertainties set to zero, and a matrix
with the uncertainty that the first match-up had in the column (in column 2, for all columns from there on); any other column keeps its uncertainties and has no matrix. -/
structure Dataset.Averaged (d : Dataset α) (s0 s : Side α) (times : List α) : Prop where
  name : s.name = s0.name
  m : s.m = s0.m
  X : s.X = s0.X
  Us : s.Us = s0.Us
  averaged : ∀ c, c < s.m → s.utype c = 3 ∨ s.utype c = 4 → d.HoldsAverage s c times (s0.Ur 0 (min c 2)) ∧ ∀ r, s.Ur r c = 0
  other : ∀ c, c < s.m → s.utype c = 1 ∨ s.utype c = 2 → s.wUse c = 0 ∧ s.uUse c = 0 ∧ ∀ r, s.Ur r c = s0.Ur r c
  readable : ∀ c, c < s.m → d.ReadableColumn s c

/-- A file the tool is meant for: known sensors, the second not the reference, the covariates of the instruments, at least two match-ups, no W matrices yet. -/
structure Dataset.Microwave (d : Dataset α) : Prop where
  two : 2 ≤ d.M
  plain : d.hasUse = false
  s1 : ∃ i, mwInstr1 d.s1.name = .ok i ∧ d.s1.m = (mwTypes i).length
  s2 : ∃ i, mwInstr2 d.s2.name = .ok i ∧ d.s2.m = (mwTypes i).length

theorem mwInstr2_ne {n : String} {i : MWInstr} (h : mwInstr2 n = .ok i) : i = .mhs ∨ i = .amsub := by
  unfold mwInstr2 at h
  split at h
  · exact .inl (Except.ok.inj h).symm
  · split at h
    · exact .inr (Except.ok.inj h).symm
    · exact absurd h (by simp)

/-- The microwave kernel gives matrices with stored elements. -/
theorem RollingAverage_stored {w : CSR α} {pos scan : List Nat} {wts : List α} (hsh : w.Shape) (hra : w.RollingAverage pos wts scan) (hp : 0 ∈ pos)
    (hk : ∃ a ∈ wts, a ≠ 0) : w.data ≠ [] ∧ 0 < w.ncols ∧ ∀ c, c < w.ncols → c ∈ w.indices := by
  obtain ⟨a, ha, ha0⟩ := hk
  obtain ⟨j, hj⟩ := List.mem_iff_getElem?.1 ha
  have hscan : scan ≠ [] := by
    apply List.ne_nil_of_mem
    refine hra.complete 0 j hp ?_
    rw [weightAt, if_pos (Nat.zero_le _), Nat.sub_zero, List.getD_eq_getElem?_getD, hj]
    exact ha0
  have hpos : 0 < w.ncols := by rw [← hra.cols]; exact List.length_pos_iff.2 hscan
  have hmem : ∀ c, c < w.ncols → c ∈ w.indices := by
    intro c hc
    obtain ⟨i, hi, hdn⟩ := hra.used c hc
    have : ∃ e ∈ w.rowEntries i, e.1 = c := by
      by_contra hx
      apply hdn
      unfold CSR.dense
      rw [List.filter_eq_nil_iff.2]
      · rfl
      · intro e he hec
        exact hx ⟨e, he, by simpa using hec⟩
    obtain ⟨e, he, rfl⟩ := this
    have : e.1 ∈ w.rowCols i := by rw [← hsh.entries_fst]; exact List.mem_map.2 ⟨e, he, rfl⟩
    unfold CSR.rowCols slice at this
    exact List.mem_of_mem_drop (List.mem_of_mem_take this)
  refine ⟨?_, hpos, hmem⟩
  have h0 := hmem 0 hpos
  intro hx
  have := hsh.data
  rw [hx] at this
  rw [List.length_eq_zero_iff.1 this.symm] at h0
  exact absurd h0 (by simp)

/-- The matrices and vectors found in a file holding copies of one rolling-average matrix. -/
theorem holds_copies {w : CSR α} {pos scan : List Nat} {times : List α} (hsl : ScanLines (8 / 3) times pos) (hwf : w.WellFormed) (hsh : w.Shape)
    (hra : w.RollingAverage pos mwWeights scan) {ws : List (CSR α)} {us : List (List α)} (hne : ws ≠ []) (hws : ∀ x ∈ ws, x = w) :
    ∃ v, returnWMatrixVariables ws us = .ok v ∧ ∀ d : Dataset α, d.M = times.length → ∀ (s : Side α) (c : Nat), 1 ≤ s.wUse c → s.wUse c ≤ ws.length →
      ∀ a, 1 ≤ s.uUse c → us[s.uUse c - 1]? = some (List.replicate w.ncols a) → (d.withW v).HoldsAverage s c times a := by
  obtain ⟨hdata, hpos, hmem⟩ := RollingAverage_stored hsh hra hsl.zero ⟨1/16, by simp [mwWeights], by positivity⟩
  obtain ⟨v, hv, hd⟩ := C09_w_u_roundtrip ws us w.nrows hne (by intro x hx; rw [hws x hx]; exact ⟨hwf, rfl, hdata⟩)
  refine ⟨v, hv, fun d hM s c h1 h2 a h3 hu' => ?_⟩
  obtain ⟨g1, g2⟩ := hd d
  have hw' : ws[s.wUse c - 1]? = some w := by
    rw [List.getElem?_eq_getElem (by omega), hws _ (List.getElem_mem _)]
  obtain ⟨m, hm, hmax, ho⟩ := g1 _ _ hw'
  have ho' := g2 _ _ hu'
  rw [show s.wUse c - 1 + 1 = s.wUse c by omega] at ho
  rw [show s.uUse c - 1 + 1 = s.uUse c by omega] at ho'
  have e1 := hsh.cols m hm
  have e2 := hmax (w.ncols - 1) (hmem _ (by omega))
  have e3 : m + 1 = w.ncols := by omega
  refine ⟨w, pos, scan, by rw [ho, e3], ho', hsh, ?_, hsl, hra⟩
  rw [hra.rows, hsl.length]
  exact hM.symm

theorem mwSide_ok {i : MWInstr} {s : Side α} {wu uu : List Nat} (hm : s.m = (mwTypes i).length) (hw : wu.length = (mwTypes i).length) (hu : uu.length = (mwTypes i).length) :
    mwSide i s wu uu = .ok { s with
      utype := (fun c => (mwTypes i).getD c 0)
      wUse := (fun c => wu.getD c 0)
      uUse := (fun c => uu.getD c 0)
      Ur := (fun r c => if c < mwZeroed i then 0 else s.Ur r c) } := by
  unfold mwSide assignEntries
  simp only [hm, hw, hu, if_true]
  rfl

/-- **C68.** For every microwave file the tool writes a file in which every column can be read, and every averaged column has a W matrix averaging over the scan lines of
the match-ups of **sensor 1**, with a u vector of the right length; K, its uncertainties and the times are those of the file given. -/
theorem C68_readable_partial {d : Dataset α} (h : d.Microwave) : ∃ d', mwRun d = .ok d' ∧ d'.M = d.M ∧ d'.Averaged d.s1 d'.s1 (vector d.M d.time1) ∧
    d'.Averaged d.s2 d'.s2 (vector d.M d.time1) ∧ d'.K = d.K ∧ d'.Kr = d.Kr ∧ d'.Ks = d.Ks ∧ d'.time1 = d.time1 ∧ d'.time2 = d.time2 := by
  obtain ⟨h2, hpl, ⟨i1, hi1, hm1⟩, ⟨i2, hi2, hm2⟩⟩ := h
  have hM : d.M ≠ 0 := by omega
  have hs : (1 : α) / 100 < 8 / 3 := by norm_num
  obtain ⟨w, pos, scan, hsl, hwf, hsh, hra, hgen⟩ := generate_float (times := vector d.M d.time1) (s := (8/3 : α)) (wts := mwWeights)
    (by intro hx; have := congrArg List.length hx; simp at this; exact hM this) hs (by simp [mwWeights])
  have hi2' := mwInstr2_ne hi2
  -- the uses and their ranges
  have huses : ∃ w1 w2 u1 u2, mwUses i1 i2 = .ok (w1, w2, u1, u2) ∧ w1.length = (mwTypes i1).length ∧ u1.length = (mwTypes i1).length ∧
      w2.length = (mwTypes i2).length ∧ u2.length = (mwTypes i2).length ∧
      (∀ c, c < (mwTypes i1).length → (((mwTypes i1).getD c 0 = 1 ∨ (mwTypes i1).getD c 0 = 2) ∧ w1.getD c 0 = 0 ∧ u1.getD c 0 = 0 ∧ mwZeroed i1 ≤ c) ∨
        (((mwTypes i1).getD c 0 = 3 ∨ (mwTypes i1).getD c 0 = 4) ∧ 1 ≤ w1.getD c 0 ∧ w1.getD c 0 ≤ (if i1 = .ref then 1 else 2) ∧ i1 ≠ .ref ∧
          u1.getD c 0 = min c 2 + 1 ∧ c < mwZeroed i1)) ∧
      (∀ c, c < (mwTypes i2).length → (((mwTypes i2).getD c 0 = 1 ∨ (mwTypes i2).getD c 0 = 2) ∧ w2.getD c 0 = 0 ∧ u2.getD c 0 = 0 ∧ mwZeroed i2 ≤ c) ∨
        (((mwTypes i2).getD c 0 = 3 ∨ (mwTypes i2).getD c 0 = 4) ∧ 1 ≤ w2.getD c 0 ∧ w2.getD c 0 ≤ (if i1 = .ref then 1 else 2) ∧
          u2.getD c 0 = (if i1 = .ref then 0 else 3) + min c 2 + 1 ∧ c < mwZeroed i2)) := by
    rcases hi2' with rfl | rfl <;> cases i1 <;> exact ⟨_, _, _, _, rfl, by decide, by decide, by decide, by decide, by decide, by decide⟩
  obtain ⟨w1, w2, u1, u2, hu, l1, l2, l3, l4, hc1, hc2⟩ := huses
  have hl2 : 3 ≤ d.s2.m := by rw [hm2]; rcases hi2' with rfl | rfl <;> decide
  set uR1 := (List.range d.s1.m).map fun c => d.s1.Ur 0 c with hR1
  set uR2 := (List.range d.s2.m).map fun c => d.s2.Ur 0 c with hR2
  have hg2 : ∀ k, k < 3 → pyGet uR2 k = .ok (d.s2.Ur 0 k) := by
    intro k hk
    have : k < d.s2.m := by omega
    simp [pyGet, hR2, this]
  -- the matrices
  have hmat : ∃ ws us, mwMatrices (vector d.M d.time1) (vector d.M d.time1) (8/3) uR1 uR2 mwWeights = .ok (ws, us) ∧ ws ≠ [] ∧ (∀ x ∈ ws, x = w) ∧
      ws.length = (if i1 = .ref then 1 else 2) ∧ (∀ k, k < 3 → us[(if i1 = .ref then 0 else 3) + k]? = some (List.replicate w.ncols (d.s2.Ur 0 k))) ∧
      (i1 ≠ .ref → ∀ k, k < 3 → us[k]? = some (List.replicate w.ncols (d.s1.Ur 0 k))) := by
    have three : ∀ k, k < 3 → k = 0 ∨ k = 1 ∨ k = 2 := by omega
    by_cases hr : i1 = .ref
    · have : uR1.length = 1 := by rw [hR1, List.length_map, List.length_range, hm1, hr]; rfl
      refine ⟨[w], [List.replicate w.ncols (d.s2.Ur 0 0), List.replicate w.ncols (1 * d.s2.Ur 0 1), List.replicate w.ncols (1 * d.s2.Ur 0 2)],
        bind_ok.2 ⟨_, hg2 0 (by omega), bind_ok.2 ⟨_, hgen _, bind_ok.2 ⟨_, hg2 1 (by omega), bind_ok.2 ⟨_, hg2 2 (by omega), ?_⟩⟩⟩⟩, by simp, by simp, by simp [hr],
          fun k hk => by rcases three k hk with rfl | rfl | rfl <;> simp [hr], fun hx => absurd hr hx⟩
      simp [this, pure, Except.pure]
    · have hl1 : 3 ≤ d.s1.m := by rw [hm1]; cases i1 <;> first | exact absurd rfl hr | decide
      have hg1 : ∀ k, k < 3 → pyGet uR1 k = .ok (d.s1.Ur 0 k) := by
        intro k hk
        have : k < d.s1.m := by omega
        simp [pyGet, hR1, this]
      have hne1 : ¬ uR1.length = 1 := by simp [hR1]; omega
      refine ⟨[w, w], [List.replicate w.ncols (d.s1.Ur 0 0), List.replicate w.ncols (1 * d.s1.Ur 0 1), List.replicate w.ncols (1 * d.s1.Ur 0 2),
          List.replicate w.ncols (d.s2.Ur 0 0), List.replicate w.ncols (1 * d.s2.Ur 0 1), List.replicate w.ncols (1 * d.s2.Ur 0 2)],
        bind_ok.2 ⟨_, hg2 0 (by omega), bind_ok.2 ⟨_, hgen _, bind_ok.2 ⟨_, hg2 1 (by omega), bind_ok.2 ⟨_, hg2 2 (by omega), ?_⟩⟩⟩⟩, by simp, by simp, by simp [hr],
          fun k hk => by rcases three k hk with rfl | rfl | rfl <;> simp [hr], fun _ k hk => by rcases three k hk with rfl | rfl | rfl <;> simp⟩
      simp only [hne1, if_false]
      refine bind_ok.2 ⟨_, hg1 0 (by omega), bind_ok.2 ⟨_, hgen _, bind_ok.2 ⟨_, hg1 1 (by omega), bind_ok.2 ⟨_, hg1 2 (by omega), ?_⟩⟩⟩⟩
      simp [pure, Except.pure]
  obtain ⟨ws, us, hmat, hne, hws, hlw, hlu2, hlu1⟩ := hmat
  obtain ⟨v, hv, hold⟩ := holds_copies hsl hwf hsh hra hne hws (us := us)
  have hs1 := mwSide_ok (s := d.s1) hm1 l1 l2
  have hs2 := mwSide_ok (s := d.s2) hm2 l3 l4
  generalize hS1 : ({ d.s1 with
      utype := (fun c => (mwTypes i1).getD c 0)
      wUse := (fun c => w1.getD c 0)
      uUse := (fun c => u1.getD c 0)
      Ur := (fun r c => if c < mwZeroed i1 then 0 else d.s1.Ur r c) } : Side α) = S1 at hs1
  generalize hS2 : ({ d.s2 with
      utype := (fun c => (mwTypes i2).getD c 0)
      wUse := (fun c => w2.getD c 0)
      uUse := (fun c => u2.getD c 0)
      Ur := (fun r c => if c < mwZeroed i2 then 0 else d.s2.Ur r c) } : Side α) = S2 at hs2
  have hR1' : firstRow d.M d.s1 = .ok uR1 := by unfold firstRow; rw [if_neg hM]
  have hR2' : firstRow d.M d.s2 = .ok uR2 := by unfold firstRow; rw [if_neg hM]
  have hfin : (if d.hasUse then .error .runtimeError else pure ({ d with s1 := S1, s2 := S2, hasUse := true }.withW v) : Py (Dataset α)) =
      .ok ({ d with s1 := S1, s2 := S2, hasUse := true }.withW v) := by rw [hpl]; rfl
  refine ⟨{ d with s1 := S1, s2 := S2, hasUse := true }.withW v, bind_ok.2 ⟨uR1, hR1', bind_ok.2 ⟨uR2, hR2', bind_ok.2 ⟨_, hi2, bind_ok.2 ⟨_, hi1, bind_ok.2 ⟨_, hmat, bind_ok.2 ⟨_, hv,
    bind_ok.2 ⟨_, hu, bind_ok.2 ⟨_, hs1, bind_ok.2 ⟨_, hs2, hfin⟩⟩⟩⟩⟩⟩⟩⟩⟩, rfl, ?_⟩
  have two : 2 ≤ d.M := h2
  have key : ∀ (d0 : Dataset α) (s0 s : Side α) (z : Nat), d0.M = d.M → d0.hasUse = true → s.name = s0.name → s.m = s0.m → s.X = s0.X → s.Us = s0.Us →
      (s.Ur = fun r c => if c < z then 0 else s0.Ur r c) →
      (∀ c, c < s.m → ((s.utype c = 1 ∨ s.utype c = 2) ∧ s.wUse c = 0 ∧ s.uUse c = 0 ∧ z ≤ c) ∨
        ((s.utype c = 3 ∨ s.utype c = 4) ∧ 1 ≤ s.wUse c ∧ s.wUse c ≤ (if i1 = .ref then 1 else 2) ∧ 1 ≤ s.uUse c ∧
          us[s.uUse c - 1]? = some (List.replicate w.ncols (s0.Ur 0 (min c 2))) ∧ c < z)) →
      (d0.withW v).Averaged s0 s (vector d.M d.time1) := by
    intro d0 s0 s z hM0 hu0 e1 e2 e3 e4 e5 hx
    refine ⟨e1, e2, e3, e4, ?_, ?_, ?_⟩
    · intro c hc h34
      rcases hx c hc with ⟨h12, _⟩ | ⟨_, a1, a2, a3, a4, a5⟩
      · omega
      · exact ⟨hold d0 (by rw [vector_length]; exact hM0) s c a1 (by rw [hlw]; exact a2) _ a3 a4, fun r => by rw [e5]; exact if_pos a5⟩
    · intro c hc h12
      rcases hx c hc with ⟨_, b1, b2, b3⟩ | ⟨h34, _⟩
      · exact ⟨b1, b2, fun r => by rw [e5]; exact if_neg (by omega)⟩
      · omega
    · intro c hc
      rcases hx c hc with ⟨h12, _⟩ | ⟨h34, a1, a2, a3, a4, a5⟩
      · rcases h12 with h | h
        · exact .inl h
        · exact .inr (.inl h)
      · obtain ⟨W, _, _, e, e', _⟩ := hold d0 (by rw [vector_length]; exact hM0) s c a1 (by rw [hlw]; exact a2) _ a3 a4
        refine .inr (.inr ⟨?_, hu0, by omega, by omega, ⟨W, e⟩, ⟨_, e'⟩⟩)
        rcases h34 with h | h
        · exact .inl h
        · exact .inr ⟨h, by show 2 ≤ d0.M; rw [hM0]; exact two⟩
  refine ⟨?_, ?_, rfl, rfl, rfl, rfl, rfl⟩
  · refine key _ d.s1 S1 (mwZeroed i1) rfl rfl (by rw [← hS1]) (by rw [← hS1]) (by rw [← hS1]) (by rw [← hS1]) (by rw [← hS1]) ?_
    rw [← hS1]
    intro c hc
    rcases hc1 c (by rw [← hm1]; exact hc) with hq | ⟨a0, a1, a2, a3, a4, a5⟩
    · exact .inl hq
    · have a4 : u1.getD c 0 = min c 2 + 1 := a4
      refine .inr ⟨a0, a1, a2, by show 1 ≤ u1.getD c 0; omega, ?_, a5⟩
      show us[u1.getD c 0 - 1]? = _
      rw [a4]
      exact hlu1 a3 _ (by omega)
  · refine key _ d.s2 S2 (mwZeroed i2) rfl rfl (by rw [← hS2]) (by rw [← hS2]) (by rw [← hS2]) (by rw [← hS2]) (by rw [← hS2]) ?_
    rw [← hS2]
    intro c hc
    rcases hc2 c (by rw [← hm2]; exact hc) with hq | ⟨a0, a1, a2, a4, a5⟩
    · exact .inl hq
    · refine .inr ⟨a0, a1, a2, by show 1 ≤ u2.getD c 0; omega, ?_, a5⟩
      show us[u2.getD c 0 - 1]? = _
      rw [a4]
      exact hlu2 _ (by omega)

/-- The times of sensor 2 play no part: the matrices of the file written are the same whatever they are. -/
theorem C68_second_times_ignored (d : Dataset α) (t : Nat → α) : mwRun { d with time2 := t } = (mwRun d).map fun d' => { d' with time2 := t } := by
  unfold mwRun
  simp only [Dataset.withW]
  rcases firstRow d.M d.s1 with e | a
  · rfl
  rcases firstRow d.M d.s2 with e | b
  · rfl
  simp only [bind, Except.bind, pure, Except.pure]
  rcases mwInstr2 d.s2.name with e | i2
  · rfl
  simp only
  rcases mwInstr1 d.s1.name with e | i1
  · rfl
  simp only
  rcases mwMatrices (vector d.M d.time1) (vector d.M d.time1) (8/3) a b mwWeights with e | ⟨ws, us⟩
  · rfl
  simp only
  rcases returnWMatrixVariables ws us with e | v
  · rfl
  simp only
  rcases mwUses i1 i2 with e | ⟨w1, w2, u1, u2⟩
  · rfl
  simp only
  rcases mwSide i1 d.s1 w1 u1 with e | s1
  · rfl
  simp only
  rcases mwSide i2 d.s2 w2 u2 with e | s2
  · rfl
  simp only
  split <;> rfl

/-- If the times of the two sensors were both used, the u vectors of sensor 1 would have the length of those of sensor 2: here the matrix of sensor 1 has 8 columns, and the
vectors of its second and further covariates have 14 entries. -/
theorem C68_lengths_fail : ∃ r, mwMatrices (α := ℚ) [0, 8/3] [0, 24] (8/3) [1, 1, 1] [1, 1, 1] mwWeights = .ok r ∧
    r.1.map CSR.ncols = [8, 14] ∧ r.2.map List.length = [8, 14, 14, 14, 14, 14] := by
  obtain ⟨r, h1, h2⟩ := Fixture.check_ok' (x := mwMatrices (α := ℚ) [0, 8/3] [0, 24] (8/3) [1, 1, 1] [1, 1, 1] mwWeights)
    (fun r => decide ((r.1.map CSR.ncols = [8, 14]) ∧ r.2.map List.length = [8, 14, 14, 14, 14, 14])) (by decide +kernel)
  exact ⟨r, h1, of_decide_eq_true h2⟩

/-- A microwave file: the reference and a satellite with nine covariates, two match-ups. -/
def Fixture.mwFile (f : Nat → Nat → ℚ) (t : Nat → ℚ) : Dataset ℚ where
  M := 2
  s1 := ⟨"18", 1, f, f, f, fun _ => 1, fun _ => 0, fun _ => 0⟩
  s2 := ⟨"ma", 9, f, f, f, fun _ => 1, fun _ => 0, fun _ => 0⟩
  K := t
  Kr := t
  Ks := t
  time1 := t
  time2 := t
  hasUse := false
  vars := []
  wNnz := []
  wVal := []
  wCol := []
  wRow := []
  uCount := []
  uVal := []

/-- It meets the hypotheses of C68. -/
theorem C68_case (f : Nat → Nat → ℚ) (t : Nat → ℚ) : (Fixture.mwFile f t).Microwave :=
  ⟨by show 2 ≤ 2; decide, rfl, ⟨.ref, by show mwInstr1 "18" = _; decide +kernel, rfl⟩, ⟨.mhs, by show mwInstr2 "ma" = _; decide +kernel, rfl⟩⟩

end Verif
