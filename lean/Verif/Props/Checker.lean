import Verif.Lemmas.Checker
import Verif.Props.Sound
import Mathlib.Algebra.Order.Ring.Rat
import Mathlib.Algebra.Field.Rat
/-
Property C54: what acceptance by the input-file checker guarantees, and what it does not.
-/
set_option autoImplicit false
namespace Verif
variable {α δ : Type} [Field α] [LinearOrder α]

/-- The program accepts the file: it ends normally and reports no error. -/
def RawFile.Accepted (f : RawFile α) : Prop := checkMain f = .ok false

theorem RawFile.Accepted.parts {f : RawFile α} (h : f.Accepted) : checkIncluded f = [] ∧ checkDtype f = [] ∧ checkDimension f = [] ∧ checkAttributes f = [] ∧
    checkWDims f = .ok [] ∧ checkValues f = [] ∧ checkWValues f = .ok [] ∧ checkAssignment f = .ok [] := by
  unfold RawFile.Accepted checkMain at h
  simp only [bind_ok, pure_ok] at h
  obtain ⟨e, he, h0⟩ := h
  have h0 : e = [] := by
    have := of_decide_eq_false h0
    exact List.length_eq_zero_iff.1 (by omega)
  subst h0
  unfold checkFile at he
  simp only [bind_ok, pure_ok] at he
  obtain ⟨e2, h2, e4, h4, e5, h5, hall⟩ := he
  simp only [List.append_eq_nil_iff] at hall
  obtain ⟨⟨⟨⟨⟨⟨⟨a1, a2⟩, a3⟩, a4⟩, a5⟩, a6⟩, a7⟩, a8⟩ := hall
  exact ⟨a1, a2, a3, a4, by rw [h2, a5], a6, by rw [h4, a7], by rw [h5, a8]⟩

/-- A required variable of an accepted file. -/
theorem RawFile.Accepted.variable {f : RawFile α} (h : f.Accepted) {n : String} (hn : n ∈ variableData.map (·.1)) {ds ts : List String}
    (hs : specOf n = some (ds, ts)) (hne : ds ≠ []) : ∃ v, f.var? n = some v ∧ v.dims = ds := by
  obtain ⟨a1, _, a3, _⟩ := h.parts
  obtain ⟨v, hv⟩ := f.has_var ((checkIncluded_nil a1).1 n hn)
  exact ⟨v, hv, checkDimension_nil a3 hv hs hne⟩

theorem RawFile.rows_of {f : RawFile α} {v : RawVar α} {d : String} {l : List String} (h : v.dims = d :: l) : f.rows v = (f.size? d).getD 0 := by
  unfold RawFile.rows; rw [h]

theorem RawFile.cols_of {f : RawFile α} {v : RawVar α} {d e : String} {l : List String} (h : v.dims = d :: e :: l) : f.cols v = (f.size? e).getD 0 := by
  unfold RawFile.cols; rw [h]

theorem RawFile.cols_one {f : RawFile α} {v : RawVar α} {d : String} (h : v.dims = [d]) : f.cols v = 1 := by
  unfold RawFile.cols; rw [h]

theorem RawFile.allInts_one {f : RawFile α} {v : RawVar α} {d : String} (h : v.dims = [d]) : f.allInts v = f.ints v := by
  unfold RawFile.allInts RawFile.ints
  rw [f.cols_one h]
  induction List.range (f.rows v) with
  | nil => rfl
  | cons a l ih => rw [List.flatMap_cons, ih]; rfl

theorem natOf_of {f : RawFile α} {n : String} {v : RawVar α} (h : f.var? n = some v) (i j : Nat) : f.natOf n i j = (v.int i j).toNat := by
  unfold RawFile.natOf; rw [h]

theorem numOf_of {f : RawFile α} {n : String} {v : RawVar α} (h : f.var? n = some v) : f.numOf 0 n = v.num := by
  unfold RawFile.numOf; rw [h]

/-- The uncertainties of K in an accepted file. -/
theorem RawFile.Accepted.k {f : RawFile α} (h : f.Accepted) (r : Nat) (hr : r < f.dataset.M) :
    0 ≤ f.dataset.Kr r ∧ 0 ≤ f.dataset.Ks r ∧ 0 < f.dataset.Ks r ^ 2 + f.dataset.Kr r ^ 2 := by
  obtain ⟨kr, hkr, dkr⟩ := h.variable (n := "Kr") (by decide) (ds := ["M"]) (ts := ["float32", "float64"]) (by decide +kernel) (by simp)
  obtain ⟨ks, hks, dks⟩ := h.variable (n := "Ks") (by decide) (ds := ["M"]) (ts := ["float32", "float64"]) (by decide +kernel) (by simp)
  obtain ⟨_, _, _, _, _, a6, _⟩ := h.parts
  unfold checkValues at a6
  rw [List.append_eq_nil_iff] at a6
  have a6 := a6.1
  unfold checkK at a6
  rw [hkr, hks] at a6
  simp only [List.append_eq_nil_iff, complainIf_nil, Bool.not_eq_false'] at a6
  obtain ⟨⟨b1, b2⟩, b3⟩ := a6
  have e1 : ∀ v : RawVar α, v.dims = ["M"] → f.allNums v = (List.range f.dataset.M).map fun i => v.num i 0 := by
    intro v hv
    unfold RawFile.allNums
    rw [f.cols_one hv, f.rows_of hv]
    show _ = (List.range ((f.size? "M").getD 0)).map _
    induction List.range ((f.size? "M").getD 0) <;> simp_all [List.flatMap_cons]
  rw [e1 kr dkr] at b1
  rw [e1 ks dks] at b2
  rw [e1 kr dkr, e1 ks dks, List.zipWith_map_left, List.zipWith_map_right, List.zipWith_self] at b3
  rw [List.all_eq_true] at b1 b2 b3
  have hr' : r ∈ List.range f.dataset.M := by simpa using hr
  have c1 := b1 _ (List.mem_map.2 ⟨r, hr', rfl⟩)
  have c2 := b2 _ (List.mem_map.2 ⟨r, hr', rfl⟩)
  have c3 := b3 _ (List.mem_map.2 ⟨r, hr', rfl⟩)
  simp only [decide_eq_true_eq] at c1 c2 c3
  have d1 : f.dataset.Kr r = kr.num r 0 := by show f.numOf 0 "Kr" r 0 = _; rw [numOf_of hkr]
  have d2 : f.dataset.Ks r = ks.num r 0 := by show f.numOf 0 "Ks" r 0 = _; rw [numOf_of hks]
  rw [d1, d2]
  exact ⟨c1, c2, c3⟩

theorem slice_map {β γ : Type} (g : β → γ) (l : List β) (a b : Nat) : slice (l.map g) a b = (slice l a b).map g := by
  simp [slice, List.map_take, List.map_drop]

/-- The W/u variables of an accepted file that has them: every use number names an existing, fitting pair of matrices. -/
theorem RawFile.Accepted.matrices {f : RawFile α} (h : f.Accepted) (hw : f.hasAll (wVariableData.map (·.1)) = true) {w1 w2 u1 u2 : RawVar α}
    (hw1 : f.var? "w_matrix_use1" = some w1) (hw2 : f.var? "w_matrix_use2" = some w2) (hu1 : f.var? "u_matrix_use1" = some u1)
    (hu2 : f.var? "u_matrix_use2" = some u2) {p : Nat} {x y : Int} (hx : (f.ints w1 ++ f.ints w2)[p]? = some x) (hy : (f.ints u1 ++ f.ints u2)[p]? = some y)
    (h0 : 0 < x) : f.dataset.SoundMatrices x.toNat y.toNat := by
  obtain ⟨_, _, a3, _, a5, _, a7, _⟩ := h.parts
  have hvar : ∀ n ∈ wVariableData.map (·.1), ∀ (ds ts : List String), specOf n = some (ds, ts) → ds ≠ [] → ∃ v, f.var? n = some v ∧ v.dims = ds := by
    intro n hn ds ts hs hne
    obtain ⟨v, hv⟩ := f.hasAll_var hw hn
    exact ⟨v, hv, checkDimension_nil a3 hv hs hne⟩
  obtain ⟨nnz, vnnz, dnnz⟩ := hvar "w_matrix_nnz" (by decide) ["w_matrix_count"] ["int32"] (by decide +kernel) (by simp)
  obtain ⟨row, vrow, drow⟩ := hvar "w_matrix_row" (by decide) ["w_matrix_count", "w_matrix_row_count"] ["int32"] (by decide +kernel) (by simp)
  obtain ⟨col, vcol, dcol⟩ := hvar "w_matrix_col" (by decide) ["w_matrix_nnz_sum"] ["int32"] (by decide +kernel) (by simp)
  obtain ⟨uc, vuc, duc⟩ := hvar "u_matrix_row_count" (by decide) ["u_matrix_count"] ["int32"] (by decide +kernel) (by simp)
  obtain ⟨uv, vuv, duv⟩ := hvar "u_matrix_val" (by decide) ["u_matrix_row_count_sum"] ["float32", "float64"] (by decide +kernel) (by simp)
  -- the dimension check
  unfold checkWDims at a5
  rw [if_pos hw] at a5
  simp only [bind_ok, pure_ok, RawFile.var_ok, RawFile.dim_ok] at a5
  obtain ⟨nw, hnw, w1', hw1', w2', hw2', m1, hm1, m2, hm2, nu, hnu, u1', hu1', u2', hu2', b1, hb1, b2, hb2, rows, hrows, M, hM, nnzs, hnnzs, nnz', hnnz', us, hus,
    uc', huc', hall⟩ := a5
  rw [hw1] at hw1'; cases hw1'
  rw [hw2] at hw2'; cases hw2'
  rw [hu1] at hu1'; cases hu1'
  rw [hu2] at hu2'; cases hu2'
  rw [vnnz] at hnnz'; cases hnnz'
  rw [vuc] at huc'; cases huc'
  simp only [List.append_eq_nil_iff, complainIf_nil, decide_eq_false_iff_not, not_not] at hall
  obtain ⟨⟨⟨⟨q1, q2⟩, q3⟩, q4⟩, q5⟩ := hall
  -- the value check
  unfold checkWValues at a7
  rw [if_pos hw] at a7
  simp only [bind_ok, pure_ok, RawFile.var_ok] at a7
  obtain ⟨w1', hw1', w2', hw2', u1', hu1', u2', hu2', mw, hmw, mu, hmu, nnz', hnnz', row', hrow', col', hcol', uc', huc', st, hst, uv', huv', hall⟩ := a7
  rw [hw1] at hw1'; cases hw1'
  rw [hw2] at hw2'; cases hw2'
  rw [hu1] at hu1'; cases hu1'
  rw [hu2] at hu2'; cases hu2'
  rw [vnnz] at hnnz'; cases hnnz'
  rw [vrow] at hrow'; cases hrow'
  rw [vcol] at hcol'; cases hcol'
  rw [vuc] at huc'; cases huc'
  rw [vuv] at huv'; cases huv'
  simp only [List.append_eq_nil_iff, complainIf_nil, decide_eq_false_iff_not, not_not, Bool.not_eq_false', List.flatMap_cons, List.flatMap_nil, List.append_nil] at hall
  obtain ⟨⟨⟨⟨⟨r1, r2⟩, r3⟩, r4⟩, r5⟩, r6, _, r7, r8⟩ := hall
  rw [f.allInts_one dnnz] at r6
  rw [f.allInts_one dcol] at r7
  rw [f.allInts_one duc] at r8
  -- the lists of the file as natural numbers
  have hcast : ∀ (v : RawVar α) (n : String) (k : Nat), f.var? n = some v → f.rows v = k → (f.ints v).all (fun x => decide (0 ≤ x)) = true →
      f.ints v = ((List.range k).map fun i => f.natOf n i 0).map (fun n : Nat => (n : Int)) := by
    intro v n k hv hk hnn
    unfold RawFile.ints
    rw [hk, List.map_map]
    apply List.map_congr_left
    intro i hi
    simp only [Function.comp_apply, natOf_of hv]
    have := List.all_eq_true.1 hnn (v.int i 0) (List.mem_map.2 ⟨i, by rw [hk]; exact hi, rfl⟩)
    simp only [decide_eq_true_eq] at this
    omega
  have cnnz : f.ints nnz = f.dataset.wNnz.map (fun n : Nat => (n : Int)) := hcast nnz _ _ vnnz (f.rows_of dnnz) r6
  have ccol : f.ints col = f.dataset.wCol.map (fun n : Nat => (n : Int)) := hcast col _ _ vcol (f.rows_of dcol) r7
  have cuc : f.ints uc = f.dataset.uCount.map (fun n : Nat => (n : Int)) := hcast uc _ _ vuc (f.rows_of duc) r8
  have hsumcast : ∀ l : List Nat, (l.map (fun n : Nat => (n : Int))).sum = ((l.sum : Nat) : Int) := by
    intro l; induction l with
    | nil => rfl
    | cons a l ih => rw [List.map_cons, List.sum_cons, List.sum_cons, ih]; omega
  have lnnz : f.dataset.wNnz.length = nw := by
    show (List.map _ (List.range ((f.size? "w_matrix_count").getD 0))).length = nw
    simp [hnw]
  have luc : f.dataset.uCount.length = nu := by
    show (List.map _ (List.range ((f.size? "u_matrix_count").getD 0))).length = nu
    simp [hnu]
  have lcol : f.dataset.wCol.length = nnzs := by
    show (List.map _ (List.range ((f.size? "w_matrix_nnz_sum").getD 0))).length = nnzs
    simp [hnnzs]
  have lval : f.dataset.wVal.length = nnzs := by
    show (List.map _ (List.range ((f.size? "w_matrix_nnz_sum").getD 0))).length = nnzs
    simp [hnnzs]
  have luv : f.dataset.uVal.length = us := by
    show (List.map _ (List.range ((f.size? "u_matrix_row_count_sum").getD 0))).length = us
    simp [hus]
  rw [cnnz, hsumcast] at q4
  rw [cuc, hsumcast] at q5
  -- ranges of the use numbers
  have hrange : ∀ (l1 l2 : List Int) (z m a b n : Int), z ∈ l1 ++ l2 → z ≠ 0 → maxInt ((l1 ++ l2).map (· + 1)) = .ok m →
      sameSet ((l1 ++ l2).filter (· ≠ 0)) (rangeFrom1 m) = true → maxInt l1 = .ok a → maxInt l2 = .ok b → n = max a b → 1 ≤ z ∧ z ≤ n := by
    intro l1 l2 z m a b n hz hz0 hm hs ha hb hn
    have := mem_rangeFrom1.1 (sameSet_mem hs (List.mem_filter.2 ⟨hz, by simpa using hz0⟩))
    refine ⟨this.1, ?_⟩
    rcases List.mem_append.1 hz with hz | hz
    · have := (maxInt_ok ha).2 z hz; omega
    · have := (maxInt_ok hb).2 z hz; omega
  have hy0 : y ≠ 0 := whereNonzero_iff r3 hx hy (by omega)
  obtain ⟨x1, x2⟩ := hrange _ _ x mw m1 m2 nw (List.mem_of_getElem? hx) (by omega) hmw r1 hm1 hm2 q1
  obtain ⟨y1, y2⟩ := hrange _ _ y mu b1 b2 nu (List.mem_of_getElem? hy) hy0 hmu r2 hb1 hb2 q2
  obtain ⟨X, rfl⟩ : ∃ X : Nat, x = X := ⟨x.toNat, by omega⟩
  obtain ⟨Y, rfl⟩ : ∃ Y : Nat, y = Y := ⟨y.toNat, by omega⟩
  simp only [Int.toNat_natCast]
  -- the width loop
  rw [cnnz, ccol, cuc] at hst
  obtain ⟨_, hwid⟩ := width_fold _ 0 0 [] st hst r4
  have hXl : X - 1 < f.dataset.wNnz.length := by omega
  obtain ⟨n, hn⟩ : ∃ n, f.dataset.wNnz[X - 1]? = some n := ⟨_, List.getElem?_eq_getElem hXl⟩
  obtain ⟨mx, hmx, hget⟩ := hwid (X - 1) n hn
  have hpair : ((X : Int), (Y : Int)) ∈ (f.ints w1 ++ f.ints w2).zip (f.ints u1 ++ f.ints u2) :=
    List.mem_iff_getElem?.2 ⟨p, List.getElem?_zip_eq_some.2 ⟨hx, hy⟩⟩
  have hcount := hget _ hpair (by simp only; omega)
  simp only at hcount
  rw [getInt_nonneg (by omega), show ((Y : Int) - 1).toNat = Y - 1 by omega] at hcount
  rw [show X - 1 + 1 = X by omega] at hmx
  simp only [Int.zero_add] at hmx
  rw [sliceInt_nat, slice_map] at hmx
  have hYl : Y - 1 < f.dataset.uCount.length := by omega
  obtain ⟨cnt, hcnt⟩ : ∃ n, f.dataset.uCount[Y - 1]? = some n := ⟨_, List.getElem?_eq_getElem hYl⟩
  have hcm : (cnt : Int) = mx + 1 := by
    rw [pyGet, List.getElem?_map, hcnt] at hcount
    simpa using hcount
  obtain ⟨hmem, hmax⟩ := maxInt_ok hmx
  obtain ⟨c, hc, hcx⟩ := List.mem_map.1 hmem
  obtain ⟨pp, pp1, pp2, pp3⟩ := slice_mem hc
  have htake : ∀ {l : List Nat} {k n : Nat}, 1 ≤ k → l[k - 1]? = some n → (l.take k).sum = (l.take (k - 1)).sum + n := by
    intro l k n hk hn
    obtain ⟨j, rfl⟩ : ∃ j, k = j + 1 := ⟨k - 1, by omega⟩
    rw [Nat.add_sub_cancel] at hn ⊢
    rw [List.take_add_one, List.sum_append, hn]
    simp
  have hsumX := htake (by omega : 1 ≤ X) hn
  have hsumY := htake (by omega : 1 ≤ Y) hcnt
  have hleX : (f.dataset.wNnz.take X).sum ≤ f.dataset.wNnz.sum := by
    conv_rhs => rw [← List.take_append_drop X f.dataset.wNnz, List.sum_append]
    omega
  have hleY : (f.dataset.uCount.take Y).sum ≤ f.dataset.uCount.sum := by
    conv_rhs => rw [← List.take_append_drop Y f.dataset.uCount, List.sum_append]
    omega
  have e1 : pyGet (prefixSums f.dataset.uCount) (Y - 1) = .ok (f.dataset.uCount.take (Y - 1)).sum := by
    rw [pyGet, prefixSums_getElem?_of_le _ (by omega)]
  have e2 : pyGet (prefixSums f.dataset.uCount) Y = .ok (f.dataset.uCount.take Y).sum := by
    rw [pyGet, prefixSums_getElem?_of_le _ (by omega)]
  have hUl : (slice f.dataset.uVal (f.dataset.uCount.take (Y - 1)).sum (f.dataset.uCount.take Y).sum).length = cnt := by
    simp only [slice, List.length_take, List.length_drop]; omega
  refine ⟨⟨by omega, by omega⟩, ⟨by omega, by omega⟩, ⟨(List.range ((f.size? "w_matrix_row_count").getD 0)).map fun j => f.natOf "w_matrix_row" (X - 1) j, ?_, ?_⟩,
    ⟨?_, by omega, by omega⟩, ⟨_, bind_ok.2 ⟨_, e1, bind_ok.2 ⟨_, e2, rfl⟩⟩, ?_, ?_, ⟨pp, c, pp1, pp2, pp3, by omega⟩⟩⟩
  · show (List.map _ (List.range ((f.size? "w_matrix_count").getD 0)))[X - 1]? = _
    rw [List.getElem?_map, List.getElem?_range (by rw [hnw]; simp only [Option.getD_some]; omega)]
    rfl
  · simp only [List.length_map, List.length_range, hrows, Option.getD_some]
    show rows = (f.size? "M").getD 0 + 1
    rw [hM, Option.getD_some]; exact q3
  · rw [List.getD, hn, Option.getD_some]
    omega
  · intro z hz
    obtain ⟨q, _, _, hq⟩ := slice_mem hz
    have hz' := List.mem_of_getElem? hq
    have hz'' : z ∈ f.nums uv := by
      have : f.dataset.uVal = f.nums uv := by
        show (List.range ((f.size? "u_matrix_row_count_sum").getD 0)).map (fun i => f.numOf 0 "u_matrix_val" i 0) = _
        unfold RawFile.nums
        rw [f.rows_of duv, numOf_of vuv]
      rw [← this]; exact hz'
    have := List.all_eq_true.1 r5 z hz''
    simpa using this
  · intro q c' hq1 hq2 hq3
    rw [hUl]
    have := hmax (c' : Int) (List.mem_map.2 ⟨c', mem_slice hq1 hq2 hq3, rfl⟩)
    omega

theorem soundColumn_of {d : Dataset α} {s : Side α} {c M : Nat} {ty w : Nat → Int} {Ur Us : Nat → Nat → α} (hM : M = d.M) (hUr : s.Ur = Ur) (hUs : s.Us = Us)
    (ht : s.utype c = (ty c).toNat) (hw : 0 < w c → d.hasUse = true ∧ d.SoundMatrices (s.wUse c) (s.uUse c))
    (h : 1 ≤ M ∧ ((ty c = 1 ∧ ∀ i, i < M → 0 < Ur i c ∧ Us i c = 0) ∨ (ty c = 2 ∧ ∀ i, i < M → 0 < Ur i c ∧ 0 < Us i c) ∨
       (ty c = 3 ∧ 0 < w c ∧ ∀ i, i < M → Us i c = 0) ∨ (ty c = 4 ∧ 0 < w c ∧ ∀ i, i < M → 0 < Us i c))) : d.SoundColumn s c := by
  subst hM hUr hUs
  refine ⟨h.1, ?_⟩
  rcases h.2 with ⟨h1, h2⟩ | ⟨h1, h2⟩ | ⟨h1, h2, h3⟩ | ⟨h1, h2, h3⟩
  · exact .inl ⟨by rw [ht, h1]; rfl, h2⟩
  · exact .inr (.inl ⟨by rw [ht, h1]; rfl, h2⟩)
  · exact .inr (.inr (.inl ⟨by rw [ht, h1]; rfl, (hw h2).1, h3, (hw h2).2⟩))
  · exact .inr (.inr (.inr ⟨by rw [ht, h1]; rfl, (hw h2).1, h3, (hw h2).2⟩))

/-- **C54, what acceptance guarantees.** A file accepted by the checker names two different sensors; the uncertainty of every K value is positive; and every
data column has a type from 1 to 4 with the data its type needs: positive random uncertainties for types 1 and 2, positive systematic uncertainties for types 2
and 4 and none otherwise, and for types 3 and 4 a W matrix and a u vector which exist, fit one another and the number of match-ups, the elements of the
vector being positive. -/
theorem C54_accepted_sound {f : RawFile α} (h : f.Accepted) : f.dataset.Sound := by
  obtain ⟨a1, _, a3, a4, _, _, _, a8⟩ := h.parts
  obtain ⟨an, bn, ha, hb, hab⟩ := checkAttributes_nil a4
  have s1 : ("sensor_" ++ "1" ++ "_name" : String) = "sensor_1_name" := by decide +kernel
  have s2 : ("sensor_" ++ "2" ++ "_name" : String) = "sensor_2_name" := by decide +kernel
  obtain ⟨t1, ht1, dt1⟩ := h.variable (n := "uncertainty_type1") (by decide) (ds := ["m1"]) (ts := ["int32"]) (by decide +kernel) (by simp)
  obtain ⟨t2, ht2, dt2⟩ := h.variable (n := "uncertainty_type2") (by decide) (ds := ["m2"]) (ts := ["int32"]) (by decide +kernel) (by simp)
  obtain ⟨ur1, hur1, dur1⟩ := h.variable (n := "Ur1") (by decide) (ds := ["M", "m1"]) (ts := ["float32", "float64"]) (by decide +kernel) (by simp)
  obtain ⟨ur2, hur2, dur2⟩ := h.variable (n := "Ur2") (by decide) (ds := ["M", "m2"]) (ts := ["float32", "float64"]) (by decide +kernel) (by simp)
  obtain ⟨us1, hus1, dus1⟩ := h.variable (n := "Us1") (by decide) (ds := ["M", "m1"]) (ts := ["float32", "float64"]) (by decide +kernel) (by simp)
  obtain ⟨us2, hus2, dus2⟩ := h.variable (n := "Us2") (by decide) (ds := ["M", "m2"]) (ts := ["float32", "float64"]) (by decide +kernel) (by simp)
  have hhas : f.hasAll assignmentNames = true := by
    unfold RawFile.hasAll
    rw [List.all_eq_true]
    intro n hn
    exact (checkIncluded_nil a1).1 n (by revert hn; revert n; decide)
  unfold checkAssignment at a8
  rw [if_pos hhas] at a8
  simp only [bind_ok, pure_ok, RawFile.var_ok, RawFile.dim_ok] at a8
  obtain ⟨m1, hm1, m2, hm2, t1', e1, t2', e2, ur1', e3, us1', e4, st1, hst1, ur2', e5, us2', e6, st2, hst2, h0⟩ := a8
  rw [ht1] at e1; cases e1
  rw [ht2] at e2; cases e2
  rw [hur1] at e3; cases e3
  rw [hus1] at e4; cases e4
  rw [hur2] at e5; cases e5
  rw [hus2] at e6; cases e6
  obtain ⟨g1, c2⟩ := assign_fold _ _ _ hst2 h0
  obtain ⟨_, c1⟩ := assign_fold _ _ _ hst1 g1
  -- the matrices of a used column
  have hposW : ∀ n ∈ wVariableData.map (·.1), f.has n = true → f.hasAll (wVariableData.map (·.1)) = true := fun n hn hh => (checkIncluded_nil a1).2 ⟨n, hn, hh⟩
  have hall : f.hasAll (wVariableData.map (·.1)) = true → ∃ w1 w2 u1 u2, f.var? "w_matrix_use1" = some w1 ∧ f.var? "w_matrix_use2" = some w2 ∧
      f.var? "u_matrix_use1" = some u1 ∧ f.var? "u_matrix_use2" = some u2 ∧ w1.dims = ["m1"] ∧ w2.dims = ["m2"] ∧ u1.dims = ["m1"] ∧ u2.dims = ["m2"] ∧
      f.dataset.hasUse = true := by
    intro hw
    obtain ⟨w1, v1⟩ := f.hasAll_var hw (n := "w_matrix_use1") (by decide)
    obtain ⟨w2, v2⟩ := f.hasAll_var hw (n := "w_matrix_use2") (by decide)
    obtain ⟨u1, v3⟩ := f.hasAll_var hw (n := "u_matrix_use1") (by decide)
    obtain ⟨u2, v4⟩ := f.hasAll_var hw (n := "u_matrix_use2") (by decide)
    refine ⟨w1, w2, u1, u2, v1, v2, v3, v4, checkDimension_nil a3 v1 (ts := ["int32"]) (by decide +kernel) (by simp),
      checkDimension_nil a3 v2 (ts := ["int32"]) (by decide +kernel) (by simp), checkDimension_nil a3 v3 (ts := ["int32"]) (by decide +kernel) (by simp),
      checkDimension_nil a3 v4 (ts := ["int32"]) (by decide +kernel) (by simp), ?_⟩
    show f.hasAll ["w_matrix_use1", "w_matrix_use2", "u_matrix_use1", "u_matrix_use2"] = true
    unfold RawFile.hasAll at hw ⊢
    rw [List.all_eq_true] at hw ⊢
    intro n hn
    exact hw n (by revert hn; revert n; decide)
  have hints : ∀ (v : RawVar α) (k c : Nat) (d : String), v.dims = [d] → f.size? d = some k → c < k → (f.ints v)[c]? = some (v.int c 0) := by
    intro v k c d hd hk hc
    unfold RawFile.ints
    rw [f.rows_of hd, hk, Option.getD_some, List.getElem?_map, List.getElem?_range hc]
    rfl
  have hilen : ∀ (v : RawVar α) (k : Nat) (d : String), v.dims = [d] → f.size? d = some k → (f.ints v).length = k := by
    intro v k d hd hk
    unfold RawFile.ints
    rw [f.rows_of hd, hk, Option.getD_some, List.length_map, List.length_range]
  have hM : ∀ (v : RawVar α) (d : String), v.dims = ["M", d] → f.rows v = f.dataset.M := fun v d hd => f.rows_of hd
  refine ⟨?_, h.k, ?_⟩
  · show (f.attr? ("sensor_" ++ "1" ++ "_name")).getD "" ≠ (f.attr? ("sensor_" ++ "2" ++ "_name")).getD ""
    rw [s1, s2, ha, hb]
    exact hab
  · rintro s (rfl | rfl) c hc
    · have n0 : ("m" ++ "1" : String) = "m1" := by decide +kernel
      have n1 : ("Ur" ++ "1" : String) = "Ur1" := by decide +kernel
      have n2 : ("Us" ++ "1" : String) = "Us1" := by decide +kernel
      have n3 : ("uncertainty_type" ++ "1" : String) = "uncertainty_type1" := by decide +kernel
      have n4 : ("w_matrix_use" ++ "1" : String) = "w_matrix_use1" := by decide +kernel
      have n5 : ("u_matrix_use" ++ "1" : String) = "u_matrix_use1" := by decide +kernel
      have hc' : c < m1 := by
        have hc : c < (f.size? ("m" ++ "1")).getD 0 := hc
        rw [n0, hm1] at hc; exact hc
      refine soundColumn_of (ty := fun c => t1.int c 0) (w := f.useOrZero "w_matrix_use1") (Ur := ur1.num) (Us := us1.num) (hM ur1 _ dur1) ?_ ?_ ?_ ?_ (c1 c (by simpa using hc'))
      · show f.numOf 0 ("Ur" ++ "1") = _; rw [n1, numOf_of hur1]
      · show f.numOf 0 ("Us" ++ "1") = _; rw [n2, numOf_of hus1]
      · show f.natOf ("uncertainty_type" ++ "1") c 0 = _; rw [n3, natOf_of ht1]
      · intro hw
        have hh : f.has "w_matrix_use1" = true := by
          unfold RawFile.useOrZero at hw
          unfold RawFile.has
          cases hv : f.var? "w_matrix_use1" with
          | none => rw [hv] at hw; simp at hw
          | some v => rfl
        have hA := hposW "w_matrix_use1" (by decide) hh
        obtain ⟨w1, w2, u1, u2, v1, v2, v3, v4, d1, d2, d3, d4, huse⟩ := hall hA
        refine ⟨huse, ?_⟩
        have e1 : (f.dataset.s1).wUse c = (w1.int c 0).toNat := by
          show f.natOf ("w_matrix_use" ++ "1") c 0 = _; rw [n4, natOf_of v1]
        have e2 : (f.dataset.s1).uUse c = (u1.int c 0).toNat := by
          show f.natOf ("u_matrix_use" ++ "1") c 0 = _; rw [n5, natOf_of v3]
        rw [e1, e2]
        have hw' : 0 < w1.int c 0 := by unfold RawFile.useOrZero at hw; rw [v1] at hw; exact hw
        refine h.matrices hA v1 v2 v3 v4 (p := c) ?_ ?_ hw'
        · rw [List.getElem?_append_left (by rw [hilen w1 m1 _ d1 hm1]; exact hc')]; exact hints w1 m1 c _ d1 hm1 hc'
        · rw [List.getElem?_append_left (by rw [hilen u1 m1 _ d3 hm1]; exact hc')]; exact hints u1 m1 c _ d3 hm1 hc'
    · have n0 : ("m" ++ "2" : String) = "m2" := by decide +kernel
      have n1 : ("Ur" ++ "2" : String) = "Ur2" := by decide +kernel
      have n2 : ("Us" ++ "2" : String) = "Us2" := by decide +kernel
      have n3 : ("uncertainty_type" ++ "2" : String) = "uncertainty_type2" := by decide +kernel
      have n4 : ("w_matrix_use" ++ "2" : String) = "w_matrix_use2" := by decide +kernel
      have n5 : ("u_matrix_use" ++ "2" : String) = "u_matrix_use2" := by decide +kernel
      have hc' : c < m2 := by
        have hc : c < (f.size? ("m" ++ "2")).getD 0 := hc
        rw [n0, hm2] at hc; exact hc
      refine soundColumn_of (ty := fun c => t2.int c 0) (w := f.useOrZero "w_matrix_use2") (Ur := ur2.num) (Us := us2.num) (hM ur2 _ dur2) ?_ ?_ ?_ ?_ (c2 c (by simpa using hc'))
      · show f.numOf 0 ("Ur" ++ "2") = _; rw [n1, numOf_of hur2]
      · show f.numOf 0 ("Us" ++ "2") = _; rw [n2, numOf_of hus2]
      · show f.natOf ("uncertainty_type" ++ "2") c 0 = _; rw [n3, natOf_of ht2]
      · intro hw
        have hh : f.has "w_matrix_use2" = true := by
          unfold RawFile.useOrZero at hw
          unfold RawFile.has
          cases hv : f.var? "w_matrix_use2" with
          | none => rw [hv] at hw; simp at hw
          | some v => rfl
        have hA := hposW "w_matrix_use2" (by decide) hh
        obtain ⟨w1, w2, u1, u2, v1, v2, v3, v4, d1, d2, d3, d4, huse⟩ := hall hA
        refine ⟨huse, ?_⟩
        have e1 : (f.dataset.s2).wUse c = (w2.int c 0).toNat := by
          show f.natOf ("w_matrix_use" ++ "2") c 0 = _; rw [n4, natOf_of v2]
        have e2 : (f.dataset.s2).uUse c = (u2.int c 0).toNat := by
          show f.natOf ("u_matrix_use" ++ "2") c 0 = _; rw [n5, natOf_of v4]
        rw [e1, e2]
        have hw' : 0 < w2.int c 0 := by unfold RawFile.useOrZero at hw; rw [v2] at hw; exact hw
        refine h.matrices hA v1 v2 v3 v4 (p := m1 + c) ?_ ?_ hw'
        · rw [List.getElem?_append_right (by rw [hilen w1 m1 _ d1 hm1]; omega), hilen w1 m1 _ d1 hm1, Nat.add_sub_cancel_left]
          exact hints w2 m2 c _ d2 hm2 hc'
        · rw [List.getElem?_append_right (by rw [hilen u1 m1 _ d3 hm1]; omega), hilen u1 m1 _ d3 hm1, Nat.add_sub_cancel_left]
          exact hints u2 m2 c _ d4 hm2 hc'

/-- **C54, accepted files are usable inputs.** Any non-empty set of accepted files opens as one match-up, in which no uncertainty of K is zero, and which (given
a data column in every file and W matrices that can be solved row after row) satisfies the conditions of the transformation to independent variables - if moreover
what the checker does not look at is right: a sensor has the same number of columns in all files, row pointers start at 0 and stay within the stored elements, a
file with a type 4 column has two match-ups, optional variables have an element per match-up. -/
theorem C54_accepted_opens_partial (env : ReadEnv α δ) (he : EnumOk env.enumNat) (he' : EnumOk env.enumStr)
    (hrss : ∀ a b : α, 0 < b ^ 2 + a ^ 2 → env.rss a b ≠ 0) {fs : List (RawFile α)} (hne : fs ≠ []) (hacc : ∀ f ∈ fs, f.Accepted)
    (hcov : ∀ d ∈ fs.map RawFile.dataset, ∀ e ∈ fs.map RawFile.dataset, ∀ s ∈ [d.s1, d.s2], ∀ t ∈ [e.s1, e.s2], s.name = t.name → s.m = t.m)
    (hun : ∀ f ∈ fs, f.dataset.Unchecked) (ho : OptionalSized (fs.map RawFile.dataset)) :
    ∃ mu, openMatchUp env (fs.map RawFile.dataset) = .ok mu ∧ (∀ u ∈ mu.unck, ∀ a ∈ u, a ≠ 0) ∧
      ((∀ f ∈ fs, 1 ≤ f.dataset.s1.m ∨ 1 ≤ f.dataset.s2.m) → (∀ f ∈ fs, f.dataset.SequentialW) → mu.Normalisable) := by
  obtain ⟨mu, h1, h2, h3⟩ := sound_opens env he he' hrss (ds := fs.map RawFile.dataset) (by simpa using hne) hcov
    (by intro d hd; obtain ⟨f, hf, rfl⟩ := List.mem_map.1 hd; exact C54_accepted_sound (hacc f hf))
    (by intro d hd; obtain ⟨f, hf, rfl⟩ := List.mem_map.1 hd; exact hun f hf) ho
  exact ⟨mu, h1, h2, fun g1 g2 => h3 (by intro d hd; obtain ⟨f, hf, rfl⟩ := List.mem_map.1 hd; exact g1 f hf)
    (by intro d hd; obtain ⟨f, hf, rfl⟩ := List.mem_map.1 hd; exact g2 f hf)⟩

/-- **C54, accepted files can be solved.** Accepted files whose unchecked parts are right, with sensor data of the right kind, are files the solver can
work on (`SolvableFiles`, the hypothesis of C28, C30, C57 and C58). -/
theorem C54_accepted_solvable_partial {fs : List (RawFile α)} {sd : SensorData α (SensorModel α δ) (AdjModel α)} {m : Nat} (hacc : ∀ f ∈ fs, f.Accepted)
    (hcov : ∀ d ∈ fs.map RawFile.dataset, ∀ e ∈ fs.map RawFile.dataset, ∀ s ∈ [d.s1, d.s2], ∀ t ∈ [e.s1, e.s2], s.name = t.name → s.m = t.m)
    (hun : ∀ f ∈ fs, f.dataset.Unchecked) (hkeys : (sd.map (·.1)).Nodup)
    (hcol : ∀ d ∈ fs.map RawFile.dataset, ∀ s, d.HasSide s → 1 ≤ s.m ∧ s.m ≤ m) (hlar : ∃ d ∈ fs.map RawFile.dataset, ∃ s, d.HasSide s ∧ s.m = m)
    (hsens : ∀ d ∈ fs.map RawFile.dataset, ∀ s, d.HasSide s → ∀ e, (s.name, e) ∈ sd → (∀ B, e.sensor_adjustment_model = some B → B.Sized) ∧
      ((e.model.Calibrated m e.constant e.parameter.length ∧ s.m = m ∧ e.parameter ≠ []) ∨
       (e.model.Reference s.m e.constant ∧ ∀ c, c < s.m → s.utype c = 1 ∨ s.utype c = 2))) : SolvableFiles (fs.map RawFile.dataset) sd m := by
  refine ⟨⟨?_, hcov⟩, hkeys, hcol, hlar, ?_, hsens⟩
  · intro d hd
    obtain ⟨f, hf, rfl⟩ := List.mem_map.1 hd
    exact (C54_accepted_sound (hacc f hf)).sensors
  · intro d hd s hs c W U hc ht hW hU
    obtain ⟨f, hf, rfl⟩ := List.mem_map.1 hd
    have hsm : f.dataset.SoundMatrices (s.wUse c) (s.uUse c) := by
      rcases ((C54_accepted_sound (hacc f hf)).columns s hs c hc).2 with ⟨h, _⟩ | ⟨h, _⟩ | ⟨_, _, _, h⟩ | ⟨_, _, _, h⟩
      · omega
      · omega
      · exact h
      · exact h
    obtain ⟨row, g1, g2, last, g3, g4⟩ := (hun f hf).pointers s hs c hc ht
    obtain ⟨W', U', k1, k2, k3, k4, k5, k6⟩ := hsm.opens g1 g2 g3 g4
    rw [hW] at k1; cases k1
    rw [hU] at k2; cases k2
    exact ⟨k3, k4, k5⟩

/-! ### Concrete files -/

namespace Fixture

/-- A real variable given by its rows. -/
def rvar (dims : List String) (rows : List (List ℚ)) : RawVar ℚ := ⟨dims, "float32", fun i j => (rows.getD i []).getD j 0, fun _ _ => 0⟩

/-- An integer variable given by its rows. -/
def ivar (dims : List String) (rows : List (List Int)) : RawVar ℚ := ⟨dims, "int32", fun _ _ => 0, fun i j => (rows.getD i []).getD j 0⟩

/-- A match-up file with two match-ups and three data columns: one of type 1; one of type 4, averaged by a 2 by 3 W matrix whose row pointers are `ptr`; one of
type 2. The numbers of match-ups can be changed by `M` (2 by default). -/
def rawFile (ptr : List Int) (M : Nat := 2) : RawFile ℚ where
  dims := [("M", M), ("m1", 1), ("m2", 2), ("w_matrix_count", 1), ("w_matrix_row_count", M + 1), ("w_matrix_nnz_sum", 4), ("u_matrix_count", 1),
    ("u_matrix_row_count_sum", 3)]
  attrs := [("sensor_1_name", "m02"), ("sensor_2_name", "n19"), ("comment", "")]
  vars := [("X1", rvar ["M", "m1"] [[10], [12]]), ("X2", rvar ["M", "m2"] [[7, 1], [8, 2]]), ("Ur1", rvar ["M", "m1"] [[1], [2]]),
    ("Ur2", rvar ["M", "m2"] [[0, 1], [0, 3]]), ("Us1", rvar ["M", "m1"] [[0], [0]]), ("Us2", rvar ["M", "m2"] [[1/2, 1], [1/2, 1]]),
    ("K", rvar ["M"] [[0], [1]]), ("Kr", rvar ["M"] [[1], [0]]), ("Ks", rvar ["M"] [[0], [1]]), ("time1", rvar ["M"] [[0], [1]]), ("time2", rvar ["M"] [[0], [1]]),
    ("uncertainty_type1", ivar ["m1"] [[1]]), ("uncertainty_type2", ivar ["m2"] [[4], [2]]), ("w_matrix_nnz", ivar ["w_matrix_count"] [[4]]),
    ("w_matrix_row", ivar ["w_matrix_count", "w_matrix_row_count"] [ptr]), ("w_matrix_col", ivar ["w_matrix_nnz_sum"] [[0], [1], [1], [2]]),
    ("w_matrix_val", rvar ["w_matrix_nnz_sum"] [[1/2], [1/2], [1/2], [1/2]]), ("w_matrix_use1", ivar ["m1"] [[0]]), ("w_matrix_use2", ivar ["m2"] [[1], [0]]),
    ("u_matrix_row_count", ivar ["u_matrix_count"] [[3]]), ("u_matrix_val", rvar ["u_matrix_row_count_sum"] [[1], [2], [1]]),
    ("u_matrix_use1", ivar ["m1"] [[0]]), ("u_matrix_use2", ivar ["m2"] [[1], [0]])]

end Fixture

/-- A non-trivial file is accepted. -/
theorem C54_case : (Fixture.rawFile [0, 2, 4]).Accepted := by
  show checkMain (Fixture.rawFile [0, 2, 4]) = .ok false
  decide +kernel

/-- The hypotheses of `C54_accepted_opens_partial` hold of that file: it opens, and can be transformed. -/
theorem C54_case_opens : ∃ mu, openMatchUp { Fixture.qenv with rss := fun a b => b ^ 2 + a ^ 2 } [(Fixture.rawFile [0, 2, 4]).dataset] = .ok mu ∧ mu.Normalisable := by
  have hone : ∀ {P : RawFile ℚ → Prop}, P (Fixture.rawFile [0, 2, 4]) → ∀ f ∈ [Fixture.rawFile [0, 2, 4]], P f := by
    intro P h f hf; simp only [List.mem_singleton] at hf; subst hf; exact h
  have hW : openW (Fixture.rawFile [0, 2, 4]).dataset 1 = .ok ⟨[1/2, 1/2, 1/2, 1/2], [0, 1, 1, 2], [0, 2, 4], 2, 3⟩ := by decide +kernel
  have huse : ∀ s, (Fixture.rawFile [0, 2, 4]).dataset.HasSide s → ∀ c, c < s.m → s.utype c = 3 ∨ s.utype c = 4 → s.wUse c = 1 := by
    rintro s (rfl | rfl)
    · have h : ∀ c, c < 1 → (Fixture.rawFile [0, 2, 4]).dataset.s1.utype c = 3 ∨ (Fixture.rawFile [0, 2, 4]).dataset.s1.utype c = 4 →
        (Fixture.rawFile [0, 2, 4]).dataset.s1.wUse c = 1 := by decide +kernel
      exact h
    · have h : ∀ c, c < 2 → (Fixture.rawFile [0, 2, 4]).dataset.s2.utype c = 3 ∨ (Fixture.rawFile [0, 2, 4]).dataset.s2.utype c = 4 →
        (Fixture.rawFile [0, 2, 4]).dataset.s2.wUse c = 1 := by decide +kernel
      exact h
  obtain ⟨mu, h1, _, h3⟩ := C54_accepted_opens_partial (δ := Int) { Fixture.qenv with rss := fun a b => b ^ 2 + a ^ 2 } Fixture.qenv_enum (fun l => ⟨nodup_eraseDups l, fun _ => mem_eraseDups_iff⟩)
    (fun a b h => h.ne') (fs := [Fixture.rawFile [0, 2, 4]]) (by simp) (hone C54_case)
    (by
      intro d hd e he
      simp only [List.map_cons, List.map_nil, List.mem_singleton] at hd he
      subst hd he
      decide +kernel)
    (hone (P := fun f => f.dataset.Unchecked) ⟨by
      intro s hs c hc ht
      rw [huse s hs c hc ht]
      exact ⟨[0, 2, 4], by decide +kernel, rfl, 4, rfl, by decide +kernel⟩, fun _ _ _ _ _ => by decide +kernel⟩)
    (by
      intro d hd e he name v hv hn
      simp only [List.map_cons, List.map_nil, List.mem_singleton] at hd he
      subst hd he
      have h0 : (Fixture.rawFile [0, 2, 4]).dataset.additionalNames = [] := by decide +kernel
      rw [h0] at hn
      rcases hn with hn | hn
      · cases hn
      · exfalso
        have : ∀ name ∈ ["across_track_index1", "across_track_index2", "along_track_index1", "along_track_index2"],
            ((Fixture.rawFile [0, 2, 4]).dataset.var? name).isNone = true := by decide +kernel
        have := this name hn
        rw [hv] at this
        cases this)
  refine ⟨mu, h1, h3 (hone (P := fun f => 1 ≤ f.dataset.s1.m ∨ 1 ≤ f.dataset.s2.m) (by decide +kernel)) (hone (P := fun f => f.dataset.SequentialW) ?_)⟩
  intro s hs c hc ht W hWo
  rw [huse s hs c hc ht, hW] at hWo
  cases hWo
  unfold CSR.Sequential
  decide +kernel

/-- A file with an unknown type is rejected; so is one whose sensors have the same name, one in which a random uncertainty is zero, one whose W and u matrices do
not fit. -/
theorem C54_case_rejected :
    (checkFile { Fixture.rawFile [0, 2, 4] with vars := ("uncertainty_type1", Fixture.ivar ["m1"] [[5]]) :: (Fixture.rawFile [0, 2, 4]).vars }).toOption =
        some [.typeMismatch 1 0] ∧
    (checkFile { Fixture.rawFile [0, 2, 4] with attrs := [("sensor_1_name", "n19"), ("sensor_2_name", "n19")] }).toOption = some [.sameSensor] ∧
    (checkFile { Fixture.rawFile [0, 2, 4] with vars := ("Ur1", Fixture.rvar ["M", "m1"] [[1], [0]]) :: (Fixture.rawFile [0, 2, 4]).vars }).toOption =
        some [.typeMismatch 1 0, .notOneForm 1 0] ∧
    (checkFile { Fixture.rawFile [0, 2, 4] with vars := ("w_matrix_col", Fixture.ivar ["w_matrix_nnz_sum"] [[0], [1], [1], [1]]) :: (Fixture.rawFile [0, 2, 4]).vars }).toOption =
        some [.wuWidth 1] := by
  refine ⟨?_, ?_, ?_, ?_⟩ <;> decide +kernel

/-- **C54, row pointers are not checked.** The same file with row pointers that run past the stored elements is accepted, and cannot be opened. -/
theorem C54_fails_pointers : (Fixture.rawFile [0, 2, 5]).Accepted ∧ ∀ env : ReadEnv ℚ Int, EnumOk env.enumNat →
    ¬ ∃ mu, openMatchUp env [(Fixture.rawFile [0, 2, 5]).dataset] = .ok mu := by
  refine ⟨by show checkMain (Fixture.rawFile [0, 2, 5]) = .ok false; decide +kernel, ?_⟩
  rintro env he ⟨mu, hmu⟩
  have hc : ConsistentFiles [(Fixture.rawFile [0, 2, 5]).dataset] := by
    refine ⟨?_, ?_⟩
    · intro d hd; simp only [List.mem_singleton] at hd; subst hd; decide +kernel
    · intro d hd e he
      simp only [List.mem_singleton] at hd he
      subst hd he
      decide +kernel
  have := C10_declared_uncertainty env he _ hc mu hmu 0 _ rfl _ (.inr rfl) 0 (by decide +kernel)
  obtain ⟨_, _, _, _, _, _, ⟨h, _⟩ | ⟨h, _⟩ | ⟨_, _, W, _, _, _, hW, _⟩⟩ := this
  · revert h; decide +kernel
  · revert h; decide +kernel
  · have : openW (Fixture.rawFile [0, 2, 5]).dataset ((Fixture.rawFile [0, 2, 5]).dataset.s2.wUse 0) = .error .valueError := by decide +kernel
    rw [this] at hW; cases hW

/-- **C54, a single match-up with a type 4 column** is accepted and cannot be opened. -/
theorem C54_fails_single : (Fixture.rawFile [0, 4] 1).Accepted ∧ ∀ env : ReadEnv ℚ Int, EnumOk env.enumNat →
    ¬ ∃ mu, openMatchUp env [(Fixture.rawFile [0, 4] 1).dataset] = .ok mu := by
  refine ⟨by show checkMain (Fixture.rawFile [0, 4] 1) = .ok false; decide +kernel, ?_⟩
  rintro env he ⟨mu, hmu⟩
  have hc : ConsistentFiles [(Fixture.rawFile [0, 4] 1).dataset] := by
    refine ⟨?_, ?_⟩
    · intro d hd; simp only [List.mem_singleton] at hd; subst hd; decide +kernel
    · intro d hd e he
      simp only [List.mem_singleton] at hd he
      subst hd he
      decide +kernel
  have := C10_declared_uncertainty env he _ hc mu hmu 0 _ rfl _ (.inr rfl) 0 (by decide +kernel)
  obtain ⟨_, _, _, _, _, _, ⟨h, _⟩ | ⟨h, _⟩ | ⟨_, _, W, _, _, _, _, _, _, ⟨h, _⟩ | ⟨_, h, _⟩⟩⟩ := this
  · revert h; decide +kernel
  · revert h; decide +kernel
  · revert h; decide +kernel
  · revert h; decide +kernel

end Verif
