import Verif.Lemmas.Transform2
/-
The normalisation of a block for an arbitrary W matrix: what the weighted averages of the chosen inputs are, row by row.
-/
set_option autoImplicit false
namespace Verif
variable {α δ : Type} [Field α]

/-- The weighted average of row `i`, for inputs `u * v`. -/
def CSR.rowSum (w : CSR α) (u v : List α) (i : Nat) : α := ((w.rowEntries i).map fun e => e.2 * (u.getD e.1 0 * v.getD e.1 0)).sum

/-- State after rows `0..k-1`, without any claim on the averages. -/
structure GenInv (w : CSR α) (u : List α) (k : Nat) (st : List α × List Bool) : Prop where
  lv : st.1.length = u.length
  le : st.2.length = w.ncols
  enc : ∀ c, c < w.ncols → (st.2[c]? = some true ↔ w.SeenBefore k c)

/-- One row: columns of earlier rows keep their values; a row of new columns gets its value times the sum of its weights; a row without new
weight gets an average that does not depend on its value. -/
theorem wRowStep_gen {w : CSR α} {u : List α} {k : Nat} {st : List α × List Bool} (hs : w.Shape)
    (hu : u.length = w.ncols) (hu0 : ∀ a ∈ u, a ≠ 0) (hk : k < w.nrows) (hI : GenInv w u k st) :
    ∃ A : α, ∀ y : α, ∃ st', wRowStep w u st (y, k) = .ok st' ∧ GenInv w u (k + 1) st' ∧
      (∀ c : Nat, w.SeenBefore k c → st'.1.getD c 0 = st.1.getD c 0) ∧
      (w.freshEntries k = w.rowEntries k → w.rowSum u st'.1 k = y * ((w.rowEntries k).map (·.2)).sum) ∧
      (w.freshEntries k ≠ w.rowEntries k → ((w.freshEntries k).map (·.2)).sum = 0 → w.rowSum u st'.1 k = A) := by
  classical
  have hp0 : k < w.indptr.length := by rw [hs.ptr]; omega
  have hp1 : k + 1 < w.indptr.length := by rw [hs.ptr]; omega
  set E := w.rowEntries k with hE
  have hcolsE : slice w.indices w.indptr[k] w.indptr[k+1] = E.map (·.1) := by
    rw [hE, hs.entries_fst]; unfold CSR.rowCols; simp [hp0, hp1]
  have hzip : (slice w.indices w.indptr[k] w.indptr[k+1]).zip (slice w.data w.indptr[k] w.indptr[k+1]) = E := by
    rw [hE]; unfold CSR.rowEntries; simp [hp0, hp1]
  have hltE : ∀ e ∈ E, e.1 < w.ncols := fun e he => hs.entry_lt he
  -- flags
  have hflag : ∀ c, c < w.ncols → pyGet st.2 c = .ok (decide (w.SeenBefore k c)) := by
    intro c hc
    rw [pyGet_ok]
    have hl : c < st.2.length := by rw [hI.le]; exact hc
    rw [List.getElem?_eq_getElem hl]
    congr 1
    have := hI.enc c hc
    rw [List.getElem?_eq_getElem hl] at this
    simp only [Option.some.injEq] at this
    cases hb : st.2[c] with
    | true => exact (decide_eq_true (this.1 hb)).symm
    | false =>
      rw [hb] at this
      exact (decide_eq_false (fun h => by have := this.2 h; cases this)).symm
  have hflags : (E.map (·.1)).mapM (pyGet st.2) = .ok (E.map fun e => decide (w.SeenBefore k e.1)) := by
    rw [mapM_ok_of (g := fun c => decide (w.SeenBefore k c))]
    · rw [List.map_map]; rfl
    · intro c hc
      obtain ⟨e, he, rfl⟩ := List.mem_map.1 hc
      exact hflag _ (hltE e he)
  have hfresh : w.freshEntries k = E.filter fun e => !decide (w.SeenBefore k e.1) := fresh_eq w k
  have hnum : (E.map fun e => decide (w.SeenBefore k e.1)).count false = (w.freshEntries k).length := by
    rw [count_false_filter, hfresh, List.filter_map, List.length_map]; rfl
  have hfle : (w.freshEntries k).length ≤ E.length := by rw [hfresh]; exact List.length_filter_le _ _
  set A := ((E.filter fun e => decide (w.SeenBefore k e.1)).map fun e => e.2 * (u.getD e.1 0 * st.1.getD e.1 0)).sum with hA
  refine ⟨A, fun y => ?_⟩
  -- the state after an assignment of value `y'/u` to the fresh columns
  have finish : ∀ (y' : α) (cols : List Nat), cols = (w.freshEntries k).map (·.1) →
      ∃ st', assignCols u y' cols st = .ok st' ∧ GenInv w u (k + 1) st' ∧ (∀ c : Nat, w.SeenBefore k c → st'.1.getD c 0 = st.1.getD c 0) ∧
        (∀ c ∈ cols, u.getD c 0 * st'.1.getD c 0 = y') := by
    intro y' cols hcols
    have hclt : ∀ c ∈ cols, c < w.ncols ∧ ¬ w.SeenBefore k c ∧ ∃ e ∈ E, e.1 = c := by
      intro c hc
      rw [hcols, hfresh] at hc
      obtain ⟨e, he, rfl⟩ := List.mem_map.1 hc
      obtain ⟨h1, h2⟩ := List.mem_filter.1 he
      exact ⟨hltE e h1, by simpa using h2, e, h1, rfl⟩
    obtain ⟨st', h1, h2, h3, h4, h5⟩ := assignCols_ok (u := u) (y := y') (cols := cols) (st := st)
      (fun c hc => by rw [hu]; exact (hclt c hc).1) (fun c hc => by rw [hI.lv, hu]; exact (hclt c hc).1)
      (fun c hc => by rw [hI.le]; exact (hclt c hc).1)
    refine ⟨st', h1, ⟨by rw [h2, hI.lv], by rw [h3, hI.le], ?_⟩, ?_, ?_⟩
    · intro c hc
      rw [h5]
      by_cases hm : c ∈ cols
      · rw [if_pos hm]
        simp only [true_iff]
        obtain ⟨_, _, e, he, hec⟩ := hclt c hm
        exact ⟨k, by omega, e, he, hec⟩
      · rw [if_neg hm, hI.enc c hc]
        constructor
        · rintro ⟨j, hj, h⟩; exact ⟨j, by omega, h⟩
        · rintro ⟨j, hj, e, he, hec⟩
          by_cases hjk : j < k
          · exact ⟨j, hjk, e, he, hec⟩
          · have : j = k := by omega
            subst this
            by_contra hns
            apply hm
            rw [hcols, hfresh]
            exact List.mem_map.2 ⟨e, List.mem_filter.2 ⟨he, by subst hec; simpa using hns⟩, hec⟩
    · intro c hc
      rw [List.getD_eq_getElem?_getD, List.getD_eq_getElem?_getD, h4, if_neg]
      intro hm; exact (hclt c hm).2.1 hc
    · intro c hc
      have hcu : c < u.length := by rw [hu]; exact (hclt c hc).1
      have hne : u.getD c 0 ≠ 0 := by
        rw [getD_of_lt hcu]; exact hu0 _ (List.getElem_mem hcu)
      rw [List.getD_eq_getElem?_getD (l := st'.1), h4, if_pos hc, Option.getD_some]
      field_simp
  -- the average over the columns of earlier rows
  have hseenA : ∀ vals : List α, (∀ c : Nat, w.SeenBefore k c → vals.getD c 0 = st.1.getD c 0) →
      ((E.filter fun e => decide (w.SeenBefore k e.1)).map fun e => e.2 * (u.getD e.1 0 * vals.getD e.1 0)).sum = A := by
    intro vals hold
    rw [hA]
    congr 1
    apply List.map_congr_left
    intro e he
    rw [hold e.1 (by simpa using (List.mem_filter.1 he).2)]
  unfold wRowStep
  simp only [pyGet_ok.2 (List.getElem?_eq_getElem hp0), pyGet_ok.2 (List.getElem?_eq_getElem hp1)]
  simp only [bind, Except.bind, hcolsE, hflags, hnum, List.length_map]
  by_cases hall : w.freshEntries k = E
  · rw [if_pos (by rw [hall])]
    obtain ⟨st', h1, h2, h3, h4⟩ := finish y (E.map (·.1)) (by rw [hall])
    refine ⟨st', h1, h2, h3, fun _ => ?_, fun h => absurd hall h⟩
    unfold CSR.rowSum
    rw [← hE]
    have : (E.map fun e => e.2 * (u.getD e.1 0 * st'.1.getD e.1 0)) = E.map fun e => e.2 * y := by
      apply List.map_congr_left
      intro e he
      rw [h4 e.1 (List.mem_map.2 ⟨e, he, rfl⟩)]
    rw [this, List.sum_map_mul_right, mul_comm]
  · have hlt : (w.freshEntries k).length < E.length := by
      rcases Nat.lt_or_eq_of_le hfle with h | h
      · exact h
      · exfalso; apply hall
        rw [hfresh] at h ⊢
        exact List.filter_eq_self.2 (List.length_filter_eq_length_iff.1 h)
    rw [if_neg (by omega)]
    rcases Nat.eq_zero_or_pos (w.freshEntries k).length with hz | hpos
    · rw [if_neg (by omega)]
      refine ⟨st, rfl, ⟨hI.lv, hI.le, ?_⟩, fun _ _ => rfl, fun h => absurd h hall, fun _ _ => ?_⟩
      · intro c hc
        rw [hI.enc c hc]
        constructor
        · rintro ⟨j, hj, h⟩; exact ⟨j, by omega, h⟩
        · rintro ⟨j, hj, e, he, hec⟩
          by_cases hjk : j < k
          · exact ⟨j, hjk, e, he, hec⟩
          · have : j = k := by omega
            subst this
            by_contra hns
            have : e ∈ w.freshEntries j := by
              rw [hfresh]
              exact List.mem_filter.2 ⟨he, by subst hec; simpa using hns⟩
            rw [List.length_eq_zero_iff.1 hz] at this
            cases this
      · unfold CSR.rowSum
        rw [← hE, filter_split_sum E (fun e => decide (w.SeenBefore k e.1)), ← hfresh, List.length_eq_zero_iff.1 hz, hseenA st.1 (fun _ _ => rfl)]
        simp
    · rw [if_pos ⟨hpos, hlt⟩]
      have hzip' : ((E.map (·.1)).zip (slice w.data w.indptr[k] w.indptr[k+1])) = E := by rw [← hcolsE]; exact hzip
      rw [hzip', zip_map_self]
      have hseen : ((E.map fun e => (e, decide (w.SeenBefore k e.1))).filter fun e => e.2).map (·.1)
          = E.filter fun e => decide (w.SeenBefore k e.1) := by
        rw [List.filter_map, List.map_map]
        simp only [Function.comp_def, List.map_id']
      have hfr : ((E.map fun e => (e, decide (w.SeenBefore k e.1))).filter fun e => !e.2).map (·.1) = w.freshEntries k := by
        rw [List.filter_map, List.map_map, hfresh]
        simp only [Function.comp_def, List.map_id']
      rw [hseen, hfr]
      have hterms : (E.filter fun e => decide (w.SeenBefore k e.1)).mapM (fun e => (do
          let v ← pyGet st.1 e.1
          let uc ← pyGet u e.1
          pure (e.2 * v * uc) : Py α)) = .ok ((E.filter fun e => decide (w.SeenBefore k e.1)).map fun e =>
            e.2 * (u.getD e.1 0 * st.1.getD e.1 0)) := by
        apply mapM_ok_of
        intro e he
        have hel : e.1 < u.length := by rw [hu]; exact hltE e (List.mem_filter.1 he).1
        have hel' : e.1 < st.1.length := by rw [hI.lv]; exact hel
        refine bind_ok.2 ⟨st.1[e.1], pyGet_ok.2 (List.getElem?_eq_getElem hel'), bind_ok.2 ⟨u[e.1], pyGet_ok.2 (List.getElem?_eq_getElem hel), ?_⟩⟩
        rw [pure_ok, getD_of_lt hel, getD_of_lt hel']
        ring
      simp only [bind, Except.bind] at hterms
      rw [hterms]
      obtain ⟨st', h1, h2, h3, h4⟩ := finish ((y - A) / ((w.freshEntries k).map (·.2)).sum) ((w.freshEntries k).map (·.1)) rfl
      refine ⟨st', h1, h2, h3, fun h => absurd h hall, fun _ h0 => ?_⟩
      unfold CSR.rowSum
      rw [← hE, filter_split_sum E (fun e => decide (w.SeenBefore k e.1)), ← hfresh, hseenA st'.1 h3]
      have h5 : ((w.freshEntries k).map fun e => e.2 * (u.getD e.1 0 * st'.1.getD e.1 0))
          = (w.freshEntries k).map fun e => e.2 * ((y - A) / ((w.freshEntries k).map (·.2)).sum) := by
        apply List.map_congr_left
        intro e he
        rw [h4 e.1 (List.mem_map.2 ⟨e, he, rfl⟩)]
      rw [h5, List.sum_map_mul_right, h0]
      simp

/-- All rows from row `k` on. -/
theorem foldRows_gen {w : CSR α} {u : List α} (hs : w.Shape) (hu : u.length = w.ncols) (hu0 : ∀ a ∈ u, a ≠ 0) :
    ∀ (rest : List α) (k : Nat) (st : List α × List Bool), k + rest.length ≤ w.nrows → GenInv w u k st →
      ∃ st', (rest.zipIdx k).foldlM (wRowStep w u) st = .ok st' ∧ GenInv w u (k + rest.length) st' ∧
        ∀ c : Nat, w.SeenBefore k c → st'.1.getD c 0 = st.1.getD c 0
  | [], k, st, _, hI => ⟨st, rfl, hI, fun _ _ => rfl⟩
  | y :: rest, k, st, hk, hI => by
    rw [List.length_cons] at hk
    obtain ⟨_, h⟩ := wRowStep_gen hs hu hu0 (by omega) hI
    obtain ⟨st1, h1, hI1, hold, _⟩ := h y
    obtain ⟨st', h2, hI', hold'⟩ := foldRows_gen hs hu hu0 rest (k + 1) st1 (by omega) hI1
    refine ⟨st', ?_, by rw [List.length_cons, show k + (rest.length + 1) = k + 1 + rest.length by omega]; exact hI', ?_⟩
    · rw [List.zipIdx_cons, List.foldlM_cons]
      exact bind_ok.2 ⟨st1, h1, h2⟩
    · rintro c ⟨j, hj, e⟩
      rw [hold' c ⟨j, by omega, e⟩, hold c ⟨j, hj, e⟩]

theorem start_gen (w : CSR α) (u : List α) : GenInv w u 0 (List.replicate u.length 0, List.replicate w.ncols false) := by
  refine ⟨by simp, by simp, ?_⟩
  intro c hc
  simp only [List.getElem?_replicate, hc, if_true, Option.some.injEq, Bool.false_eq_true, false_iff]
  rintro ⟨j, hj, _⟩; omega

/-- A block always has inputs. -/
theorem normRows_total {w : CSR α} {u x : List α} (hs : w.Shape) (hu : u.length = w.ncols) (hu0 : ∀ a ∈ u, a ≠ 0) (hx : x.length = w.nrows) :
    ∃ v, normRows w u x = .ok v ∧ v.length = u.length := by
  obtain ⟨st, h1, hI, _⟩ := foldRows_gen hs hu hu0 x 0 _ (by omega) (start_gen w u)
  exact ⟨st.1, bind_ok.2 ⟨st, h1, rfl⟩, hI.lv⟩

/-- What the average of row `k` of the chosen inputs is, as a function of the value `y` at `k`, the values before being fixed. -/
theorem normRows_row {w : CSR α} {u pre : List α} (hs : w.Shape) (hu : u.length = w.ncols) (hu0 : ∀ a ∈ u, a ≠ 0) (hk : pre.length < w.nrows) :
    ∃ A : α, ∀ (y : α) (post v : List α), pre.length + 1 + post.length = w.nrows → normRows w u (pre ++ y :: post) = .ok v →
      (w.freshEntries pre.length = w.rowEntries pre.length → w.rowSum u v pre.length = y * ((w.rowEntries pre.length).map (·.2)).sum) ∧
      (w.freshEntries pre.length ≠ w.rowEntries pre.length → ((w.freshEntries pre.length).map (·.2)).sum = 0 → w.rowSum u v pre.length = A) := by
  obtain ⟨st, h1, hI, _⟩ := foldRows_gen hs hu hu0 pre 0 _ (by omega) (start_gen w u)
  rw [Nat.zero_add] at hI
  obtain ⟨A, hA⟩ := wRowStep_gen hs hu hu0 hk hI
  refine ⟨A, fun y post v hl hv => ?_⟩
  obtain ⟨st1, e1, hI1, hold, ha, hb⟩ := hA y
  obtain ⟨st2, e2, hI2, hold2⟩ := foldRows_gen hs hu hu0 post (pre.length + 1) st1 (by omega) hI1
  have hrun : normRows w u (pre ++ y :: post) = .ok st2.1 := by
    refine bind_ok.2 ⟨st2, ?_, rfl⟩
    rw [List.zipIdx_append, List.foldlM_append]
    refine bind_ok.2 ⟨st, h1, ?_⟩
    rw [List.zipIdx_cons, List.foldlM_cons, Nat.zero_add]
    exact bind_ok.2 ⟨st1, e1, e2⟩
  rw [hrun] at hv
  cases hv
  have hrow : w.rowSum u st2.1 pre.length = w.rowSum u st1.1 pre.length := by
    unfold CSR.rowSum
    congr 1
    apply List.map_congr_left
    intro e he
    rw [hold2 e.1 ⟨pre.length, by omega, e, he, rfl⟩]
  rw [hrow]
  exact ⟨ha, hb⟩

/-- The averages are the row sums. -/
theorem csrDot_rowSum {w : CSR α} {u v x : List α} (hs : w.Shape) (hu : u.length = w.ncols) (hv : v.length = u.length)
    (h : csrDot w (List.zipWith (· * ·) u v) = .ok x) {i : Nat} (hi : i < w.nrows) : x[i]? = some (w.rowSum u v i) := by
  unfold csrDot at h
  rw [if_pos (by rw [List.length_zipWith, hv, Nat.min_self, hu])] at h
  injection h with h
  rw [← h, List.getElem?_map, List.getElem?_range hi, Option.map_some]
  congr 1
  unfold CSR.rowSum
  congr 1
  apply List.map_congr_left
  intro e he
  have hel : e.1 < u.length := by rw [hu]; exact hs.entry_lt he
  have hel' : e.1 < v.length := by rw [hv]; exact hel
  congr 1
  rw [getD_of_lt (by simp [hel, hel']), List.getElem_zipWith, getD_of_lt hel, getD_of_lt hel']

/-- **Only sequentially solvable W matrices.** If row `i` is not solvable, then one of the two blocks 0 and "1 at row `i`, 0 elsewhere" is not
reproduced by the inputs chosen for it. -/
theorem not_sequential {w : CSR α} {u : List α} (hs : w.Shape) (hu : u.length = w.ncols) (hu0 : ∀ a ∈ u, a ≠ 0)
    (h : ∀ x : List α, x.length = w.nrows → ∃ v, normRows w u x = .ok v ∧ csrDot w (List.zipWith (· * ·) u v) = .ok x) : w.Sequential := by
  intro i hi
  have hlen : ∀ x : List α, x.length = w.nrows → ∀ v, normRows w u x = .ok v → v.length = u.length := by
    intro x hx v hv
    obtain ⟨v', h1, h2⟩ := normRows_total hs hu hu0 hx
    rw [hv] at h1; cases h1; exact h2
  set pre : List α := List.replicate i 0 with hpre
  have hpl : pre.length = i := by simp [hpre]
  obtain ⟨A, hA⟩ := normRows_row (pre := pre) hs hu hu0 (by omega)
  have key : ∀ y : α, (w.freshEntries i = w.rowEntries i → y = y * ((w.rowEntries i).map (·.2)).sum) ∧
      (w.freshEntries i ≠ w.rowEntries i → ((w.freshEntries i).map (·.2)).sum = 0 → y = A) := by
    intro y
    have hx : (pre ++ y :: List.replicate (w.nrows - i - 1) 0).length = w.nrows := by simp [hpre]; omega
    obtain ⟨v, hv, hd⟩ := h _ hx
    have hr := csrDot_rowSum hs hu (hlen _ hx v hv) hd hi
    rw [List.getElem?_append_right (by omega), hpl, Nat.sub_self, List.getElem?_cons_zero] at hr
    injection hr with hr
    obtain ⟨h1, h2⟩ := hA y _ v (by simp [hpre]; omega) hv
    rw [hpl, ← hr] at h1 h2
    exact ⟨h1, h2⟩
  by_cases hf : w.freshEntries i = w.rowEntries i
  · refine .inl ⟨hf, ?_⟩
    have := (key 1).1 hf
    rw [one_mul] at this
    exact this.symm
  · refine .inr ⟨hf, fun h0 => ?_⟩
    exact zero_ne_one (((key 0).2 hf h0).trans ((key 1).2 hf h0).symm)

end Verif
