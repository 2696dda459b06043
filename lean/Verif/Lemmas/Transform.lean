import Verif.Spec.WMatrix
import Verif.Lemmas.Sample
import Mathlib.Tactic.FieldSimp
import Mathlib.Tactic.Ring
import Mathlib.Algebra.BigOperators.Ring.List
/-
Helper lemmas for the transformation to normalised independent variables.
-/
set_option autoImplicit false
namespace Verif
variable {α δ : Type}

theorem getD_of_lt [Zero α] {l : List α} {i : Nat} (h : i < l.length) : l.getD i 0 = l[i] := by simp [h]

theorem npZip_eq {f : α → α → α} {a b : List α} (h : a.length = b.length) : npZip f a b = .ok (List.zipWith f a b) := by
  unfold npZip; rw [if_pos h]

theorem assignCols_ok [Field α] {u : List α} {y : α} : ∀ {cols : List Nat} {st : List α × List Bool},
    (∀ c ∈ cols, c < u.length) → (∀ c ∈ cols, c < st.1.length) → (∀ c ∈ cols, c < st.2.length) →
    ∃ st', assignCols u y cols st = .ok st' ∧ st'.1.length = st.1.length ∧ st'.2.length = st.2.length ∧
      (∀ c : Nat, st'.1[c]? = if c ∈ cols then some (y / u.getD c 0) else st.1[c]?) ∧
      (∀ c : Nat, st'.2[c]? = if c ∈ cols then some true else st.2[c]?)
  | [], st, _, _, _ => ⟨st, rfl, rfl, rfl, by simp, by simp⟩
  | c :: cols, st, hu, hv, he => by
    have hc := hu c (by simp)
    have hcv := hv c (by simp)
    have hce := he c (by simp)
    obtain ⟨st', h1, h2, h3, h4, h5⟩ := assignCols_ok (u := u) (y := y) (cols := cols)
      (st := (st.1.set c (y / u[c]), st.2.set c true))
      (fun d hd => hu d (by simp [hd])) (fun d hd => by simpa using hv d (by simp [hd])) (fun d hd => by simpa using he d (by simp [hd]))
    refine ⟨st', ?_, by simpa using h2, by simpa using h3, ?_, ?_⟩
    · unfold assignCols at h1 ⊢
      rw [List.foldlM_cons]
      refine bind_ok.2 ⟨_, bind_ok.2 ⟨u[c], pyGet_ok.2 (List.getElem?_eq_getElem hc), rfl⟩, h1⟩
    · intro d
      rw [h4]
      by_cases hd : d ∈ cols
      · simp [hd]
      · rw [if_neg hd, List.getElem?_set]
        by_cases hcd : c = d
        · subst hcd; simp [hc, hcv]
        · have : ¬ d = c := fun h => hcd h.symm
          simp [hcd, this, hd]
    · intro d
      rw [h5]
      by_cases hd : d ∈ cols
      · simp [hd]
      · rw [if_neg hd, List.getElem?_set]
        by_cases hcd : c = d
        · subst hcd; simp [hce]
        · have : ¬ d = c := fun h => hcd h.symm
          simp [hcd, this, hd]

/-- Column `c` occurs in a row before `k`. -/
def CSR.SeenBefore (w : CSR α) (k c : Nat) : Prop := ∃ j, j < k ∧ ∃ e ∈ w.rowEntries j, e.1 = c

theorem fresh_eq (w : CSR α) (i : Nat) [DecidablePred (w.SeenBefore i)] :
    w.freshEntries i = (w.rowEntries i).filter fun e => !decide (w.SeenBefore i e.1) := by
  unfold CSR.freshEntries
  congr 1
  funext e
  congr 1
  rw [Bool.eq_iff_iff, List.any_eq_true, decide_eq_true_iff]
  constructor
  · rintro ⟨j, hj, h⟩
    rw [List.any_eq_true] at h
    obtain ⟨e', he', hc⟩ := h
    exact ⟨j, List.mem_range.1 hj, e', he', by simpa using hc⟩
  · rintro ⟨j, hj, e', he', hc⟩
    exact ⟨j, List.mem_range.2 hj, by rw [List.any_eq_true]; exact ⟨e', he', by simpa using hc⟩⟩

theorem CSR.Shape.entries_fst {w : CSR α} (h : w.Shape) (i : Nat) : (w.rowEntries i).map (·.1) = w.rowCols i := by
  unfold CSR.rowEntries CSR.rowCols
  rw [List.map_fst_zip]
  simp only [slice_length, h.data]; exact Nat.le_refl _

theorem CSR.Shape.entry_lt {w : CSR α} (h : w.Shape) {i : Nat} {e : Nat × α} (he : e ∈ w.rowEntries i) : e.1 < w.ncols := by
  have : e.1 ∈ w.rowCols i := by rw [← h.entries_fst]; exact List.mem_map.2 ⟨e, he, rfl⟩
  unfold CSR.rowCols slice at this
  exact h.cols _ (List.mem_of_mem_drop (List.mem_of_mem_take this))

/-- Invariant after rows `0..k-1`. -/
structure NormInv [Field α] (w : CSR α) (u x : List α) (k : Nat) (st : List α × List Bool) : Prop where
  lv : st.1.length = u.length
  le : st.2.length = w.ncols
  enc : ∀ c, c < w.ncols → (st.2[c]? = some true ↔ w.SeenBefore k c)
  row : ∀ (i : Nat) (y : α), i < k → x[i]? = some y →
    ((w.rowEntries i).map fun e => e.2 * (u.getD e.1 0 * st.1.getD e.1 0)).sum = y

theorem count_false_filter (l : List Bool) : l.count false = (l.filter (fun b => !b)).length := by
  induction l with
  | nil => rfl
  | cons b l ih => cases b <;> simp [ih]

theorem filter_split_sum [Field α] (l : List (Nat × α)) (p : Nat × α → Bool) (g : Nat × α → α) :
    (l.map g).sum = ((l.filter p).map g).sum + ((l.filter fun e => !p e).map g).sum := by
  induction l with
  | nil => simp
  | cons e l ih =>
    cases hp : p e
    · simp only [List.map_cons, List.sum_cons, List.filter_cons, hp, ih]
      simp only [Bool.false_eq_true, if_false, Bool.not_false, if_true, List.map_cons, List.sum_cons]
      ring
    · simp only [List.map_cons, List.sum_cons, List.filter_cons, hp, ih]
      simp only [if_true, Bool.not_true, Bool.false_eq_true, if_false, List.map_cons, List.sum_cons]
      ring

theorem zip_map_self (l : List (Nat × α)) (g : Nat × α → Bool) : l.zip (l.map g) = l.map fun e => (e, g e) := by
  induction l with
  | nil => rfl
  | cons a l ih => simp [ih]

theorem wRowStep_inv [Field α] {w : CSR α} {u x : List α} {k : Nat} {st : List α × List Bool} {y : α} (hs : w.Shape) (hq : w.Sequential)
    (hu : u.length = w.ncols) (hu0 : ∀ a ∈ u, a ≠ 0) (hk : k < w.nrows) (hx : x[k]? = some y) (hI : NormInv w u x k st) :
    ∃ st', wRowStep w u st (y, k) = .ok st' ∧ NormInv w u x (k + 1) st' := by
  classical
  have hp0 : k < w.indptr.length := by rw [hs.ptr]; omega
  have hp1 : k + 1 < w.indptr.length := by rw [hs.ptr]; omega
  set E := w.rowEntries k with hE
  have hcolsE : slice w.indices w.indptr[k] w.indptr[k+1] = E.map (·.1) := by
    rw [hE, hs.entries_fst]; unfold CSR.rowCols; simp [hp0, hp1]
  have hzip : (slice w.indices w.indptr[k] w.indptr[k+1]).zip (slice w.data w.indptr[k] w.indptr[k+1]) = E := by
    rw [hE]; unfold CSR.rowEntries; simp [hp0, hp1]
  have hltE : ∀ e ∈ E, e.1 < w.ncols := fun e he => hs.entry_lt he
  -- flags
  have hflag : ∀ c, c < w.ncols → pyGet st.2 c = .ok (decide (w.SeenBefore k c)) := by
    intro c hc
    rw [pyGet_ok]
    have hl : c < st.2.length := by rw [hI.le]; exact hc
    rw [List.getElem?_eq_getElem hl]
    congr 1
    have := hI.enc c hc
    rw [List.getElem?_eq_getElem hl] at this
    simp only [Option.some.injEq] at this
    cases hb : st.2[c] with
    | true => exact (decide_eq_true (this.1 hb)).symm
    | false =>
      rw [hb] at this
      exact (decide_eq_false (fun h => by have := this.2 h; cases this)).symm
  have hflags : (E.map (·.1)).mapM (pyGet st.2) = .ok (E.map fun e => decide (w.SeenBefore k e.1)) := by
    rw [mapM_ok_of (g := fun c => decide (w.SeenBefore k c))]
    · rw [List.map_map]; rfl
    · intro c hc
      obtain ⟨e, he, rfl⟩ := List.mem_map.1 hc
      exact hflag _ (hltE e he)
  have hfresh : w.freshEntries k = E.filter fun e => !decide (w.SeenBefore k e.1) := fresh_eq w k
  have hnum : (E.map fun e => decide (w.SeenBefore k e.1)).count false = (w.freshEntries k).length := by
    rw [count_false_filter, hfresh, List.filter_map, List.length_map]; rfl
  have hfle : (w.freshEntries k).length ≤ E.length := by rw [hfresh]; exact List.length_filter_le _ _
  -- the new invariant from an assignment of value `y'/u` to the fresh columns
  have finish : ∀ (y' : α) (cols : List Nat), cols = (w.freshEntries k).map (·.1) →
      (∀ vals : List α, vals.length = u.length → (∀ c : Nat, c < w.ncols → w.SeenBefore k c → vals.getD c 0 = st.1.getD c 0) →
        (∀ c ∈ cols, u.getD c 0 * vals.getD c 0 = y') →
        (E.map fun e => e.2 * (u.getD e.1 0 * vals.getD e.1 0)).sum = y) →
      ∃ st', assignCols u y' cols st = .ok st' ∧ NormInv w u x (k + 1) st' := by
    intro y' cols hcols hrow
    have hclt : ∀ c ∈ cols, c < w.ncols ∧ ¬ w.SeenBefore k c ∧ ∃ e ∈ E, e.1 = c := by
      intro c hc
      rw [hcols, hfresh] at hc
      obtain ⟨e, he, rfl⟩ := List.mem_map.1 hc
      obtain ⟨h1, h2⟩ := List.mem_filter.1 he
      exact ⟨hltE e h1, by simpa using h2, e, h1, rfl⟩
    obtain ⟨st', h1, h2, h3, h4, h5⟩ := assignCols_ok (u := u) (y := y') (cols := cols) (st := st)
      (fun c hc => by rw [hu]; exact (hclt c hc).1) (fun c hc => by rw [hI.lv, hu]; exact (hclt c hc).1)
      (fun c hc => by rw [hI.le]; exact (hclt c hc).1)
    refine ⟨st', h1, ?_⟩
    have hold : ∀ c : Nat, w.SeenBefore k c → st'.1.getD c 0 = st.1.getD c 0 := by
      intro c hc
      rw [List.getD_eq_getElem?_getD, List.getD_eq_getElem?_getD, h4, if_neg]
      intro hm; exact (hclt c hm).2.1 hc
    refine ⟨by rw [h2, hI.lv], by rw [h3, hI.le], ?_, ?_⟩
    · intro c hc
      rw [h5]
      by_cases hm : c ∈ cols
      · rw [if_pos hm]
        simp only [true_iff]
        obtain ⟨_, _, e, he, hec⟩ := hclt c hm
        exact ⟨k, by omega, e, he, hec⟩
      · rw [if_neg hm, hI.enc c hc]
        constructor
        · rintro ⟨j, hj, h⟩; exact ⟨j, by omega, h⟩
        · rintro ⟨j, hj, e, he, hec⟩
          by_cases hjk : j < k
          · exact ⟨j, hjk, e, he, hec⟩
          · have : j = k := by omega
            subst this
            by_contra hns
            apply hm
            rw [hcols, hfresh]
            exact List.mem_map.2 ⟨e, List.mem_filter.2 ⟨he, by subst hec; simpa using hns⟩, hec⟩
    · intro i z hi hz
      by_cases hik : i < k
      · rw [← hI.row i z hik hz]
        congr 1
        apply List.map_congr_left
        intro e he
        rw [hold e.1 ⟨i, hik, e, he, rfl⟩]
      · have : i = k := by omega
        subst this
        rw [hx] at hz; cases hz
        apply hrow st'.1 (by rw [h2, hI.lv]) (fun c _ hc => hold c hc)
        intro c hc
        have hcu : c < u.length := by rw [hu]; exact (hclt c hc).1
        have hne : u.getD c 0 ≠ 0 := by
          rw [getD_of_lt hcu]; exact hu0 _ (List.getElem_mem hcu)
        rw [List.getD_eq_getElem?_getD (l := st'.1), h4, if_pos hc, Option.getD_some]
        field_simp
  unfold wRowStep
  have start : ∀ {r : Py (List α × List Bool)} {st'}, r = .ok st' → r = .ok st' := fun h => h
  simp only [pyGet_ok.2 (List.getElem?_eq_getElem hp0), pyGet_ok.2 (List.getElem?_eq_getElem hp1)]
  simp only [bind, Except.bind, hcolsE, hflags, hnum, List.length_map]
  rcases hq k hk with ⟨hall, hsum⟩ | ⟨hnall, hsum⟩
  · rw [if_pos (by rw [hall])]
    apply finish y _ (by rw [hall])
    intro vals _ _ hnew
    have : (E.map fun e => e.2 * (u.getD e.1 0 * vals.getD e.1 0)) = E.map fun e => e.2 * y := by
      apply List.map_congr_left
      intro e he
      rw [hnew e.1 (List.mem_map.2 ⟨e, he, rfl⟩)]
    rw [this, List.sum_map_mul_right, hsum, one_mul]
  · have hlt : (w.freshEntries k).length < E.length := by
      rcases Nat.lt_or_eq_of_le hfle with h | h
      · exact h
      · exfalso; apply hnall
        rw [hfresh] at h ⊢
        exact List.filter_eq_self.2 (List.length_filter_eq_length_iff.1 h)
    have hpos : 0 < (w.freshEntries k).length := by
      rcases Nat.eq_zero_or_pos (w.freshEntries k).length with h | h
      · exfalso; apply hsum
        rw [List.length_eq_zero_iff.1 h]; rfl
      · exact h
    rw [if_neg (by omega), if_pos ⟨hpos, hlt⟩]
    have hzip' : ((E.map (·.1)).zip (slice w.data w.indptr[k] w.indptr[k+1])) = E := by rw [← hcolsE]; exact hzip
    rw [hzip', zip_map_self]
    have hseen : ((E.map fun e => (e, decide (w.SeenBefore k e.1))).filter fun e => e.2).map (·.1)
        = E.filter fun e => decide (w.SeenBefore k e.1) := by
      rw [List.filter_map, List.map_map]
      simp only [Function.comp_def, List.map_id']
    have hfr : ((E.map fun e => (e, decide (w.SeenBefore k e.1))).filter fun e => !e.2).map (·.1) = w.freshEntries k := by
      rw [List.filter_map, List.map_map, hfresh]
      simp only [Function.comp_def, List.map_id']
    rw [hseen, hfr]
    have hterms : (E.filter fun e => decide (w.SeenBefore k e.1)).mapM (fun e => (do
        let v ← pyGet st.1 e.1
        let uc ← pyGet u e.1
        pure (e.2 * v * uc) : Py α)) = .ok ((E.filter fun e => decide (w.SeenBefore k e.1)).map fun e =>
          e.2 * (u.getD e.1 0 * st.1.getD e.1 0)) := by
      apply mapM_ok_of
      intro e he
      have hel : e.1 < u.length := by rw [hu]; exact hltE e (List.mem_filter.1 he).1
      have hel' : e.1 < st.1.length := by rw [hI.lv]; exact hel
      refine bind_ok.2 ⟨st.1[e.1], pyGet_ok.2 (List.getElem?_eq_getElem hel'), bind_ok.2 ⟨u[e.1], pyGet_ok.2 (List.getElem?_eq_getElem hel), ?_⟩⟩
      rw [pure_ok, getD_of_lt hel, getD_of_lt hel']
      ring
    simp only [bind, Except.bind] at hterms
    rw [hterms]
    apply finish _ _ rfl
    intro vals _ hold hnew
    rw [filter_split_sum E (fun e => decide (w.SeenBefore k e.1)), ← hfresh]
    have h1 : ((E.filter fun e => decide (w.SeenBefore k e.1)).map fun e => e.2 * (u.getD e.1 0 * vals.getD e.1 0))
        = (E.filter fun e => decide (w.SeenBefore k e.1)).map fun e => e.2 * (u.getD e.1 0 * st.1.getD e.1 0) := by
      apply List.map_congr_left
      intro e he
      obtain ⟨a, b⟩ := List.mem_filter.1 he
      rw [hold e.1 (hltE e a) (by simpa using b)]
    rw [h1]
    set A := ((E.filter fun e => decide (w.SeenBefore k e.1)).map fun e => e.2 * (u.getD e.1 0 * st.1.getD e.1 0)).sum with hA
    set R := ((w.freshEntries k).map (·.2)).sum with hR
    have h2 : ((w.freshEntries k).map fun e => e.2 * (u.getD e.1 0 * vals.getD e.1 0))
        = (w.freshEntries k).map fun e => e.2 * ((y - A) / R) := by
      apply List.map_congr_left
      intro e he
      rw [hnew e.1 (List.mem_map.2 ⟨e, he, rfl⟩)]
    rw [h2, List.sum_map_mul_right]
    rw [show ((w.freshEntries k).map (fun e => e.2)).sum = R from rfl]
    field_simp
    ring

theorem normRows_ok [Field α] {w : CSR α} {u x : List α} (hs : w.Shape) (hq : w.Sequential)
    (hu : u.length = w.ncols) (hu0 : ∀ a ∈ u, a ≠ 0) (hx : x.length = w.nrows) :
    ∃ v, normRows w u x = .ok v ∧ v.length = u.length ∧ csrDot w (List.zipWith (· * ·) u v) = .ok x := by
  have key : ∀ (rest : List α) (k : Nat) (st : List α × List Bool), x.drop k = rest → NormInv w u x k st →
      ∃ st', (rest.zipIdx k).foldlM (wRowStep w u) st = .ok st' ∧ NormInv w u x (k + rest.length) st' := by
    intro rest
    induction rest with
    | nil => intro k st _ hI; exact ⟨st, rfl, hI⟩
    | cons y rest ih =>
      intro k st hd hI
      have hxk : x[k]? = some y := by
        have := congrArg (·[0]?) hd
        simpa using this
      have hkl := (List.getElem?_eq_some_iff.1 hxk).1
      obtain ⟨st1, h1, hI1⟩ := wRowStep_inv hs hq hu hu0 (by omega) hxk hI
      have hd' : x.drop (k + 1) = rest := by
        have := congrArg (List.drop 1) hd
        simpa [List.drop_drop, Nat.add_comm] using this
      obtain ⟨st', h2, hI'⟩ := ih (k + 1) st1 hd' hI1
      refine ⟨st', ?_, by rw [List.length_cons, show k + (rest.length + 1) = k + 1 + rest.length by omega]; exact hI'⟩
      rw [List.zipIdx_cons, List.foldlM_cons]
      exact bind_ok.2 ⟨st1, h1, h2⟩
  obtain ⟨st, h1, hI⟩ := key x 0 (List.replicate u.length 0, List.replicate w.ncols false) rfl (by
    refine ⟨by simp, by simp, ?_, by simp⟩
    intro c hc
    simp only [List.getElem?_replicate, hc, if_true, Option.some.injEq, Bool.false_eq_true, false_iff]
    rintro ⟨j, hj, _⟩; omega)
  refine ⟨st.1, ?_, hI.lv, ?_⟩
  · unfold normRows
    exact bind_ok.2 ⟨st, h1, rfl⟩
  · unfold csrDot
    rw [if_pos (by rw [List.length_zipWith, hI.lv, Nat.min_self, hu])]
    congr 1
    apply List.ext_getElem?
    intro i
    rw [List.getElem?_map]
    by_cases hi : i < w.nrows
    · have hxi : i < x.length := by omega
      rw [List.getElem?_range hi, List.getElem?_eq_getElem hxi, Option.map_some]
      congr 1
      rw [← hI.row i x[i] (by simpa using hxi) (List.getElem?_eq_getElem hxi)]
      congr 1
      apply List.map_congr_left
      intro e he
      have hel : e.1 < u.length := by rw [hu]; exact hs.entry_lt he
      have hel' : e.1 < st.1.length := by rw [hI.lv]; exact hel
      congr 1
      rw [getD_of_lt (by simp [hel, hel']), List.getElem_zipWith, getD_of_lt hel, getD_of_lt hel']
    · rw [List.getElem?_eq_none_iff.2 (by simp; omega), List.getElem?_eq_none_iff.2 (by omega)]; rfl

end Verif
namespace Verif
variable {α δ : Type}

theorem setSlice_get {l v r : List α} {a b : Nat} (h : setSlice l a b v = .ok r) (hab : a ≤ b) (hb : b ≤ l.length) :
    r.length = l.length ∧ (∀ k : Nat, k < a ∨ b ≤ k → r[k]? = l[k]?) ∧ (v.length = b - a → slice r a b = v) ∧
      (v.length = b - a ∨ v.length = 1) := by
  have hn : (slice l a b).length = b - a := by rw [slice_length]; omega
  have key : ∀ m : List α, m.length = b - a → (l.take a ++ m ++ l.drop (a + (b - a))).length = l.length ∧
      (∀ k : Nat, k < a ∨ b ≤ k → (l.take a ++ m ++ l.drop (a + (b - a)))[k]? = l[k]?) := by
    intro m hm
    refine ⟨by simp [hm]; omega, ?_⟩
    intro k hk
    have hta : (l.take a).length = a := by simp; omega
    rcases hk with hk | hk
    · rw [List.append_assoc, List.getElem?_append_left (by omega), List.getElem?_take, if_pos hk]
    · rw [List.getElem?_append_right (by simp [hm]; omega), List.getElem?_drop]
      congr 1
      simp [hm]; omega
  unfold setSlice at h
  simp only [hn] at h
  split at h
  · rename_i hv
    cases h
    refine ⟨(key v hv).1, (key v hv).2, ?_, .inl hv⟩
    intro _
    unfold slice
    have hta : (l.take a).length = a := by simp; omega
    rw [List.append_assoc, List.drop_append, hta, List.drop_of_length_le (by omega), Nat.sub_self, List.drop_zero, List.nil_append,
      List.take_append_of_le_length (by omega), List.take_of_length_le (by omega)]
  · rename_i hv
    split at h
    · cases h
      refine ⟨(key _ (by simp)).1, (key _ (by simp)).2, fun h => absurd h hv, .inr rfl⟩
    · cases h

theorem setSlice_bcast {l v r z : List α} {a b : Nat} (h : setSlice l a b v = .ok r) (hab : a ≤ b) (hb : b ≤ l.length)
    (hz : z.length = b - a) : setSlice z 0 (b - a) v = .ok (slice r a b) := by
  have hn : (slice l a b).length = b - a := by rw [slice_length]; omega
  have hn2 : (slice z 0 (b - a)).length = b - a := by rw [slice_length]; omega
  have hta : (l.take a).length = a := by simp; omega
  have key : ∀ m : List α, m.length = b - a → slice (l.take a ++ m ++ l.drop (a + (b - a))) a b = m := by
    intro m hm
    unfold slice
    rw [List.append_assoc, List.drop_append, hta, List.drop_of_length_le (by omega), Nat.sub_self, List.drop_zero, List.nil_append,
      List.take_append_of_le_length (by omega), List.take_of_length_le (by omega)]
  unfold setSlice at h ⊢
  simp only [hn, hn2] at h ⊢
  split at h
  · rename_i hv
    cases h
    rw [if_pos hv, key v hv]
    simp [hz]
  · rename_i hv
    rw [if_neg hv]
    split at h
    · cases h
      rw [key _ (by simp)]
      simp [hz]
    · cases h

/-- Start positions of consecutive blocks (the last boundary is irrelevant). -/
def Starts (starts sizes : List Nat) : Prop := ∀ b : Nat, b < sizes.length → starts[b]? = some (sizes.take b).sum

theorem writeBlocks_inv {starts sizes : List Nat} {data : List (Py (List α))} {init out : List α} (hst : Starts starts sizes)
    (hl : data.length ≤ sizes.length) (hi : sizes.sum ≤ init.length) (h : writeBlocks starts sizes data init = .ok out) :
    out.length = init.length ∧ (∀ k : Nat, sizes.sum ≤ k → out[k]? = init[k]?) ∧
    ∀ (b n : Nat) (r : Py (List α)), data[b]? = some r → sizes[b]? = some n → ∃ d, r = .ok d ∧ (d.length = n ∨ d.length = 1) ∧
      (d.length = n → slice out (sizes.take b).sum ((sizes.take b).sum + n) = d) ∧
      ∀ z : List α, z.length = n → setSlice z 0 n d = .ok (slice out (sizes.take b).sum ((sizes.take b).sum + n)) := by
  have key : ∀ (rest : List (Py (List α))) (m : Nat) (out0 : List α), m + rest.length ≤ sizes.length → out0.length = init.length →
      (rest.zipIdx m).foldlM (fun out (di : Py (List α) × Nat) => do
        let a ← pyGet starts di.2
        let n ← pyGet sizes di.2
        let d ← di.1
        setSlice out a (a + n) d) out0 = (.ok out : Py (List α)) →
      out.length = init.length ∧ (∀ k : Nat, (k < (sizes.take m).sum ∨ sizes.sum ≤ k) → out[k]? = out0[k]?) ∧
      ∀ (b n : Nat) (r : Py (List α)), rest[b]? = some r → sizes[m + b]? = some n → ∃ d, r = .ok d ∧ (d.length = n ∨ d.length = 1) ∧
        (d.length = n → slice out (sizes.take (m + b)).sum ((sizes.take (m + b)).sum + n) = d) ∧
        ∀ z : List α, z.length = n → setSlice z 0 n d = .ok (slice out (sizes.take (m + b)).sum ((sizes.take (m + b)).sum + n)) := by
    intro rest
    induction rest with
    | nil =>
      intro m out0 _ ho h
      rw [List.zipIdx_nil, List.foldlM_nil, pure_ok] at h
      subst h
      exact ⟨ho, fun _ _ => rfl, by simp⟩
    | cons r rest ih =>
      intro m out0 hm ho h
      rw [List.zipIdx_cons, List.foldlM_cons] at h
      obtain ⟨out1, h1, h2⟩ := bind_ok.1 h
      obtain ⟨a, ha, h1⟩ := bind_ok.1 h1
      obtain ⟨n, hn, h1⟩ := bind_ok.1 h1
      obtain ⟨d, hd, h1⟩ := bind_ok.1 h1
      simp only [List.length_cons] at hm
      rw [pyGet_ok] at ha hn
      simp only at ha hn hd
      rw [hst m (by omega)] at ha
      cases ha
      have hsum := take_succ_sum sizes hn
      have hle : (sizes.take (m+1)).sum ≤ sizes.sum := by
        have := take_sum_le_take_sum sizes (show m + 1 ≤ sizes.length by omega)
        rwa [List.take_length] at this
      obtain ⟨e1, e2, e3, e4⟩ := setSlice_get h1 (by omega) (by omega)
      obtain ⟨f1, f2, f3⟩ := ih (m + 1) out1 (by omega) (by omega) h2
      refine ⟨f1, ?_, ?_⟩
      · intro k hk
        rw [f2 k (by omega), e2 k (by omega)]
      · intro b n' r' hb hn'
        cases b with
        | zero =>
          simp only [List.getElem?_cons_zero, Option.some.injEq] at hb
          subst hb
          rw [Nat.add_zero] at hn'
          rw [hn] at hn'; cases hn'
          have hsame : slice out (sizes.take m).sum ((sizes.take m).sum + n) = slice out1 (sizes.take m).sum ((sizes.take m).sum + n) := by
            apply List.ext_getElem?
            intro k
            rw [slice_getElem?, slice_getElem?]
            split
            · rw [f2 _ (by omega)]
            · rfl
          refine ⟨d, hd, by rcases e4 with h | h <;> omega, ?_, ?_⟩
          · intro hdl
            rw [Nat.add_zero, hsame, ← e3 (by omega)]
          · intro z hz
            have := setSlice_bcast (z := z) h1 (by omega) (by omega) (by omega)
            rw [Nat.add_sub_cancel_left] at this
            rw [Nat.add_zero, hsame, this]
        | succ b =>
          simp only [List.getElem?_cons_succ] at hb
          have := f3 b n' r' hb (by rw [← hn']; congr 1; omega)
          rwa [show m + 1 + b = m + (b + 1) by omega] at this
  obtain ⟨a, b, c⟩ := key data 0 init (by omega) rfl h
  refine ⟨a, fun k hk => b k (.inr hk), ?_⟩
  intro i n r h1 h2
  have := c i n r h1 (by rw [Nat.zero_add]; exact h2)
  rwa [Nat.zero_add] at this

theorem writeBlocks_total {starts sizes : List Nat} {data : List (Py (List α))} {init : List α} (hst : Starts starts sizes)
    (hl : data.length ≤ sizes.length) (hi : sizes.sum ≤ init.length)
    (hd : ∀ (b n : Nat) (r : Py (List α)), data[b]? = some r → sizes[b]? = some n → ∃ d, r = .ok d ∧ d.length = n) :
    ∃ out, writeBlocks starts sizes data init = .ok out := by
  have key : ∀ (rest : List (Py (List α))) (m : Nat) (out0 : List α), m + rest.length ≤ sizes.length → out0.length = init.length →
      (∀ (b n : Nat) (r : Py (List α)), rest[b]? = some r → sizes[m + b]? = some n → ∃ d, r = .ok d ∧ d.length = n) →
      ∃ out, (rest.zipIdx m).foldlM (fun out (di : Py (List α) × Nat) => do
        let a ← pyGet starts di.2
        let n ← pyGet sizes di.2
        let d ← di.1
        setSlice out a (a + n) d) out0 = (.ok out : Py (List α)) := by
    intro rest
    induction rest with
    | nil => intro m out0 _ _ _; exact ⟨out0, rfl⟩
    | cons r rest ih =>
      intro m out0 hm ho hd
      simp only [List.length_cons] at hm
      have hml : m < sizes.length := by omega
      obtain ⟨d, hr, hdl⟩ := hd 0 sizes[m] r (by simp) (by simp [hml])
      have hsum := take_succ_sum sizes (List.getElem?_eq_getElem hml)
      have hle : (sizes.take (m+1)).sum ≤ sizes.sum := by
        have := take_sum_le_take_sum sizes (show m + 1 ≤ sizes.length by omega)
        rwa [List.take_length] at this
      have hset := setSlice_eq (l := out0) (a := (sizes.take m).sum) (b := (sizes.take m).sum + sizes[m]) (v := d) (by omega) (by omega) (by omega)
      obtain ⟨out, hout⟩ := ih (m + 1) _ (by omega) (by
          rw [(setSlice_get hset (by omega) (by omega)).1, ho]) (by
        intro b n r' h1 h2
        exact hd (b + 1) n r' (by simpa using h1) (by rw [← h2]; congr 1; omega))
      refine ⟨out, ?_⟩
      rw [List.zipIdx_cons, List.foldlM_cons]
      refine bind_ok.2 ⟨_, bind_ok.2 ⟨_, pyGet_ok.2 (hst m hml), bind_ok.2 ⟨sizes[m], pyGet_ok.2 (List.getElem?_eq_getElem hml), bind_ok.2 ⟨d, hr, hset⟩⟩⟩, hout⟩
  exact key data 0 init (by omega) rfl (by
    intro b n r h1 h2
    exact hd b n r h1 (by rwa [Nat.zero_add] at h2))

theorem starts_prefixSums (sizes : List Nat) : Starts (prefixSums sizes) sizes := fun b hb =>
  prefixSums_getElem?_of_le _ (by omega)

theorem bumpLast_prefixSums (sizes : List Nat) (n : Nat) : Starts (bumpLast (prefixSums sizes) n) sizes ∧
    (bumpLast (prefixSums sizes) n).length = sizes.length + 1 ∧ (bumpLast (prefixSums sizes) n)[sizes.length]? = some (sizes.sum + n) := by
  have hg := prefixSums_getLast sizes
  have hdl : (prefixSums sizes).dropLast.length = sizes.length := by simp
  unfold bumpLast
  rw [hg]
  simp only [Option.map_some, Option.toList_some]
  refine ⟨?_, by simp, ?_⟩
  · intro b hb
    rw [List.getElem?_append_left (by omega), List.getElem?_dropLast, if_pos (by simp; omega)]
    exact prefixSums_getElem?_of_le _ (by omega)
  · rw [List.getElem?_append_right (by omega), hdl]; simp

end Verif
