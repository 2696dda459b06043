import Verif.Model.Sample
import Verif.Spec.Layout
import Verif.Lemmas.ReaderSeries
import Verif.Props.SensorData
import Verif.Props.WFile
/-
Helper lemmas for the sampling properties.
-/
set_option autoImplicit false
namespace Verif
variable {α δ : Type}

theorem mem_rowCols {w : CSR α} {i c : Nat} (hi : i + 1 < w.indptr.length) : c ∈ w.rowCols i ↔ w.Stored i c := by
  have h0 : i < w.indptr.length := by omega
  have e0 : w.indptr.getD i 0 = w.indptr[i] := by simp [h0]
  have e1 : w.indptr.getD (i + 1) 0 = w.indptr[i + 1] := by simp [hi]
  unfold CSR.rowCols CSR.Stored
  rw [e0, e1, List.mem_iff_getElem?]
  simp only [slice_getElem?]
  constructor
  · rintro ⟨k, hk⟩
    split at hk
    · exact ⟨_, _, _, List.getElem?_eq_getElem h0, List.getElem?_eq_getElem hi, Nat.le_add_right _ k, by omega, hk⟩
    · cases hk
  · rintro ⟨p, a, b, ha, hb, h1, h2, h3⟩
    rw [List.getElem?_eq_getElem h0] at ha; rw [List.getElem?_eq_getElem hi] at hb
    cases ha; cases hb
    refine ⟨p - w.indptr[i], ?_⟩
    rw [if_pos (by omega)]
    rw [show w.indptr[i] + (p - w.indptr[i]) = p by omega]; exact h3

theorem markCols_get (marks : List Bool) (cols : List Nat) (c : Nat) :
    (markCols marks cols)[c]? = some true ↔ marks[c]? = some true ∨ (c < marks.length ∧ c ∈ cols) := by
  unfold markCols
  induction cols generalizing marks with
  | nil => simp
  | cons a cols ih =>
    simp only [List.foldl_cons]
    rw [ih]
    by_cases hac : a = c
    · subst hac
      by_cases hl : a < marks.length <;> simp [hl]
    · have : ¬ c = a := fun h => hac h.symm
      simp [List.getElem?_set, hac, this]

theorem markCols_length (marks : List Bool) (cols : List Nat) : (markCols marks cols).length = marks.length := by
  unfold markCols
  induction cols generalizing marks with
  | nil => rfl
  | cons a cols ih => simp [ih]

theorem pyGet_ok {β : Type} {l : List β} {i : Nat} {x : β} : pyGet l i = .ok x ↔ l[i]? = some x := by
  unfold pyGet
  cases l[i]? <;> simp

theorem unmarked_ok {marks : List Bool} {cols : List Nat} {r : Bool} (h : unmarked marks cols = .ok r) :
    (∀ c ∈ cols, c < marks.length) ∧ (r = true ↔ ∀ c ∈ cols, marks[c]? ≠ some true) := by
  unfold unmarked at h
  obtain ⟨prev, hp, h⟩ := bind_ok.1 h
  rw [pure_ok] at h
  obtain ⟨hl, hg⟩ := mapM_ok_get hp
  have key : ∀ c ∈ cols, ∃ v, v ∈ prev ∧ marks[c]? = some v := by
    intro c hc
    obtain ⟨i, hi⟩ := List.mem_iff_getElem?.1 hc
    obtain ⟨v, hv, hpv⟩ := hg i c hi
    exact ⟨v, List.mem_of_getElem? hpv, pyGet_ok.1 hv⟩
  have key2 : ∀ v ∈ prev, ∃ c ∈ cols, marks[c]? = some v := by
    intro v hv
    obtain ⟨i, hi⟩ := List.mem_iff_getElem?.1 hv
    have : i < cols.length := by rw [← hl]; exact (List.getElem?_eq_some_iff.1 hi).1
    obtain ⟨v', hv', hpv⟩ := hg i cols[i] (List.getElem?_eq_getElem this)
    rw [hi] at hpv; cases hpv
    exact ⟨_, List.getElem_mem this, pyGet_ok.1 hv'⟩
  refine ⟨?_, ?_⟩
  · intro c hc
    obtain ⟨v, _, hv⟩ := key c hc
    exact (List.getElem?_eq_some_iff.1 hv).1
  · rw [← h, List.all_eq_true]
    constructor
    · intro hall c hc hm
      obtain ⟨v, hv, hmv⟩ := key c hc
      rw [hm] at hmv; cases hmv
      have := hall _ hv
      simp at this
    · intro hall v hv
      obtain ⟨c, hc, hmc⟩ := key2 v hv
      cases v with
      | false => rfl
      | true => exact absurd hmc (hall c hc)

/-- Invariant of the row loop after rows `0..k-1`. -/
structure GreedyInv (ws : List (CSR α)) (k : Nat) (st : List (List Bool) × List Nat) : Prop where
  len : st.1.length = ws.length
  marks : ∀ (j : Nat) (m : List Bool) (w : CSR α), st.1[j]? = some m → ws[j]? = some w →
    ∀ c, m[c]? = some true ↔ (c < m.length ∧ ∃ i ∈ st.2, c ∈ w.rowCols i)
  sorted : st.2.Pairwise (· < ·)
  lt : ∀ i ∈ st.2, i < k
  indep : ∀ i ∈ st.2, ∀ i' ∈ st.2, i ≠ i' → ∀ w ∈ ws, ∀ c, c ∈ w.rowCols i → c ∉ w.rowCols i'
  maximal : ws ≠ [] → ∀ i < k, i ∉ st.2 → ∃ i' ∈ st.2, i' < i ∧ ∃ w ∈ ws, ∃ c, c ∈ w.rowCols i ∧ c ∈ w.rowCols i'

theorem greedyStep_inv {ws : List (CSR α)} {k : Nat} {st st' : List (List Bool) × List Nat}
    (hI : GreedyInv ws k st) (h : greedyStep ws st k = .ok st') : GreedyInv ws (k + 1) st' := by
  unfold greedyStep at h
  obtain ⟨tests, ht, h⟩ := bind_ok.1 h
  obtain ⟨hl, hg⟩ := mapM_ok_get ht
  have hzl : (st.1.zip ws).length = ws.length := by simp [hI.len]
  -- per matrix facts
  have hmat : ∀ (j : Nat) (w : CSR α), ws[j]? = some w → ∃ m t, st.1[j]? = some m ∧ tests[j]? = some t ∧
      (∀ c ∈ w.rowCols k, c < m.length) ∧ (t = true ↔ ∀ c ∈ w.rowCols k, m[c]? ≠ some true) := by
    intro j w hw
    have hj : j < st.1.length := by rw [hI.len]; exact (List.getElem?_eq_some_iff.1 hw).1
    have hz : (st.1.zip ws)[j]? = some (st.1[j], w) := by
      rw [List.getElem?_zip_eq_some]; exact ⟨List.getElem?_eq_getElem hj, hw⟩
    obtain ⟨t, h1, h2⟩ := hg j _ hz
    obtain ⟨a, b⟩ := unmarked_ok h1
    exact ⟨_, t, List.getElem?_eq_getElem hj, h2, a, b⟩
  split at h
  · rename_i hcond
    rw [pure_ok] at h
    subst h
    have hall : ∀ w ∈ ws, ∀ i ∈ st.2, ∀ c, c ∈ w.rowCols k → c ∉ w.rowCols i := by
      intro w hw i hi c hc hci
      obtain ⟨j, hj⟩ := List.mem_iff_getElem?.1 hw
      obtain ⟨m, t, hm, ht', hb, hiff⟩ := hmat j w hj
      have : t = true := by
        have := List.all_eq_true.1 hcond.2 t (List.mem_of_getElem? ht')
        simpa using this
      exact hiff.1 this c hc ((hI.marks j m w hm hj c).2 ⟨hb c hc, i, hi, hci⟩)
    refine ⟨by simp [hI.len], ?_, ?_, ?_, ?_, ?_⟩
    · intro j m' w hm' hw c
      simp only [List.getElem?_map] at hm'
      obtain ⟨m, t, hm, _, hb, _⟩ := hmat j w hw
      have hz : (st.1.zip ws)[j]? = some (m, w) := by rw [List.getElem?_zip_eq_some]; exact ⟨hm, hw⟩
      rw [hz] at hm'
      simp only [Option.map_some, Option.some.injEq] at hm'
      subst hm'
      rw [markCols_get, markCols_length, hI.marks j m w hm hw c]
      constructor
      · rintro (⟨h1, i, hi, h2⟩ | ⟨h1, h2⟩)
        · exact ⟨h1, i, by simp [hi], h2⟩
        · exact ⟨h1, k, by simp, h2⟩
      · rintro ⟨h1, i, hi, h2⟩
        rcases List.mem_append.1 hi with hi | hi
        · exact .inl ⟨h1, i, hi, h2⟩
        · rw [List.mem_singleton] at hi; subst hi; exact .inr ⟨h1, h2⟩
    · rw [List.pairwise_append]
      refine ⟨hI.sorted, by simp, ?_⟩
      intro a ha b hb
      rw [List.mem_singleton] at hb; subst hb; exact hI.lt a ha
    · intro i hi
      rcases List.mem_append.1 hi with hi | hi
      · exact Nat.lt_succ_of_lt (hI.lt i hi)
      · rw [List.mem_singleton] at hi; omega
    · intro i hi i' hi' hne w hw c hc hc'
      simp only [List.mem_append, List.mem_singleton] at hi hi'
      rcases hi with hi | hi <;> rcases hi' with hi' | hi'
      · exact hI.indep i hi i' hi' hne w hw c hc hc'
      · subst hi'; exact hall w hw i hi c hc' hc
      · subst hi; exact hall w hw i' hi' c hc hc'
      · exact hne (hi.trans hi'.symm)
    · intro hne i hi hni
      simp only [List.mem_append, List.mem_singleton, not_or] at hni
      obtain ⟨i', hi', hlt, hx⟩ := hI.maximal hne i (by omega) hni.1
      exact ⟨i', by simp [hi'], hlt, hx⟩
  · rename_i hcond
    rw [pure_ok] at h
    subst h
    refine ⟨hI.len, hI.marks, hI.sorted, fun i hi => Nat.lt_succ_of_lt (hI.lt i hi), hI.indep, ?_⟩
    intro hne i hi hni
    by_cases hik : i < k
    · exact hI.maximal hne i hik hni
    · have : i = k := by omega
      subst this
      have htne : tests ≠ [] := by
        intro h0
        rw [h0, hzl] at hl
        exact hne (List.length_eq_zero_iff.1 hl.symm)
      have hno : ¬ (tests.all (· == true)) = true := fun h0 => hcond ⟨htne, h0⟩
      simp only [List.all_eq_true, not_forall] at hno
      obtain ⟨t, htm, htf⟩ := hno
      obtain ⟨j, hj⟩ := List.mem_iff_getElem?.1 htm
      have hjw : j < ws.length := by rw [← hzl, ← hl]; exact (List.getElem?_eq_some_iff.1 hj).1
      obtain ⟨m, t', hm, ht', hb, hiff⟩ := hmat j ws[j] (List.getElem?_eq_getElem hjw)
      rw [hj] at ht'; cases ht'
      have hf : ¬ t = true := by simpa using htf
      rw [hiff] at hf
      simp only [not_forall] at hf
      obtain ⟨c, hc, hm'⟩ := hf
      have hm'' : m[c]? = some true := by simpa using hm'
      obtain ⟨_, i', hi', hc'⟩ := (hI.marks j m _ hm (List.getElem?_eq_getElem hjw) c).1 hm''
      exact ⟨i', hi', hI.lt i' hi', _, List.getElem_mem hjw, c, hc, hc'⟩

theorem greedyRows_spec {ws : List (CSR α)} {idxs : List Nat} (h : greedyRows ws = .ok idxs) :
    ∃ st, GreedyInv ws (rowCount ws) st ∧ st.2 = idxs := by
  unfold greedyRows at h
  obtain ⟨st, hst, h⟩ := bind_ok.1 h
  rw [pure_ok] at h
  refine ⟨st, ?_, h⟩
  have key : ∀ (n : Nat) (st : List (List Bool) × List Nat),
      (List.range n).foldlM (greedyStep ws) (ws.map fun w => List.replicate w.ncols false, []) = .ok st →
      GreedyInv ws n st := by
    intro n
    induction n with
    | zero =>
      intro st h
      simp only [List.range_zero, List.foldlM_nil, pure_ok] at h
      subst h
      refine ⟨by simp, ?_, by simp, by simp, by simp, by simp⟩
      intro j m w hm hw c
      simp only [List.getElem?_map, hw, Option.map_some, Option.some.injEq] at hm
      subst hm
      simp [List.getElem?_replicate]
    | succ n ih =>
      intro st h
      rw [List.range_succ, List.foldlM_append] at h
      obtain ⟨st1, h1, h2⟩ := bind_ok.1 h
      have h2' : greedyStep ws st1 n = .ok st := by
        cases hg : greedyStep ws st1 n with
        | error e => simp [List.foldlM_cons, hg, bind, Except.bind] at h2
        | ok s' => simpa [List.foldlM_cons, hg, bind, Except.bind, pure, Except.pure] using h2
      exact greedyStep_inv (ih _ h1) h2'
  exact key _ _ hst

theorem rowCount_le {ws : List (CSR α)} {w : CSR α} (h : w ∈ ws) : rowCount ws ≤ w.indptr.length - 1 := by
  have key : ∀ (l : List Nat) (n x : Nat), x = n ∨ x ∈ l → l.foldl min n ≤ x := by
    intro l
    induction l with
    | nil => intro n x hx; simp at hx; simp [hx]
    | cons a l ih =>
      intro n x hx
      simp only [List.foldl_cons]
      rcases hx with rfl | hx
      · exact le_trans (ih (min x a) (min x a) (.inl rfl)) (Nat.min_le_left _ _)
      · rcases List.mem_cons.1 hx with rfl | hx
        · exact le_trans (ih (min n x) (min n x) (.inl rfl)) (Nat.min_le_right _ _)
        · exact ih _ _ (.inr hx)
  unfold rowCount
  cases ws with
  | nil => simp at h
  | cons w0 ws =>
    simp only [List.map_cons]
    rcases List.mem_cons.1 h with rfl | h
    · exact key _ _ _ (.inl rfl)
    · exact key _ _ _ (.inr (List.mem_map.2 ⟨w, h, rfl⟩))

theorem rowCount_eq {ws : List (CSR α)} {M : Nat} (hne : ws ≠ []) (h : ∀ w ∈ ws, w.indptr.length = M + 1) : rowCount ws = M := by
  obtain ⟨w0, ws', rfl⟩ := List.exists_cons_of_ne_nil hne
  unfold rowCount
  simp only [List.map_cons]
  have e : ws'.map (fun w => w.indptr.length - 1) = ws'.map fun _ => M := by
    apply List.map_congr_left
    intro w hw
    rw [h w (by simp [hw])]; rfl
  rw [e, h w0 (by simp)]
  have : ∀ l : List (CSR α), (l.map fun _ => M).foldl min M = M := by
    intro l; induction l with
    | nil => rfl
    | cons a l ih => simpa using ih
  simpa using this ws'

theorem pySample_ok {rnd : List Nat → Nat → List Nat} {p s : List Nat} {k : Nat} (hr : SampleOk rnd) (h : pySample rnd p k = .ok s) :
    s.length = k ∧ s.Subperm p := by
  unfold pySample at h
  split at h
  · rename_i hk
    cases h
    exact hr p k hk
  · cases h

theorem pySorted_perm (l : List Nat) : (pySorted l).Perm l := List.mergeSort_perm l _

theorem pySorted_sorted (l : List Nat) : (pySorted l).Pairwise (· ≤ ·) := by
  have := List.pairwise_mergeSort (le := fun a b => decide (a ≤ b)) (by intro a b c; simp; omega) (by intro a b; simp; omega) l
  simpa [pySorted] using this

theorem mem_seriesWs {mu : MatchUp α δ} {n : Nat} {ws : List (CSR α)} (h : seriesWs mu n = .ok ws) (w : CSR α) :
    w ∈ ws ↔ mu.SeriesW n w := by
  unfold seriesWs at h
  obtain ⟨hl, hg⟩ := mapM_ok_get h
  have hstep : ∀ {wi : Nat} {m : CSR α}, (do
      let o ← pyGet mu.w_matrices wi
      match o with
      | some m => pure m
      | none => .error .attributeError : Py (CSR α)) = .ok m ↔ mu.w_matrices[wi]? = some (some m) := by
    intro wi m
    rw [bind_ok]
    constructor
    · rintro ⟨o, h1, h2⟩
      rw [pyGet_ok] at h1
      cases o with
      | none => cases h2
      | some m' => rw [pure_ok] at h2; rw [h1, h2]
    · intro h1
      exact ⟨some m, pyGet_ok.2 h1, rfl⟩
  have hw : ∀ {u : Unc α} {wi : Nat}, u.wIndex? = some wi ↔ ∃ ui, (u = .structured wi ui ∨ ∃ uS, u = .structuredSystematic wi ui uS) := by
    intro u wi
    cases u <;> simp [Unc.wIndex?]
  have hin : ∀ wi, wi ∈ ((mu.idx.n_mu.zip mu.unc).filterMap fun nu => if nu.1 = n then nu.2.unc.wIndex? else none) ↔
      ∃ (b u_i : Nat) (ub : UncBlock α), mu.idx.n_mu[b]? = some n ∧ mu.unc[b]? = some ub ∧
      (ub.unc = .structured wi u_i ∨ ∃ uS, ub.unc = .structuredSystematic wi u_i uS) := by
    intro wi
    rw [List.mem_filterMap]
    constructor
    · rintro ⟨⟨n', ub⟩, hmem, hif⟩
      obtain ⟨b, hb⟩ := List.mem_iff_getElem?.1 hmem
      rw [List.getElem?_zip_eq_some] at hb
      simp only at hif hb
      split at hif
      · rename_i hn
        subst hn
        obtain ⟨ui, hu⟩ := hw.1 hif
        exact ⟨b, ui, ub, hb.1, hb.2, hu⟩
      · cases hif
    · rintro ⟨b, ui, ub, h1, h2, h3⟩
      refine ⟨(n, ub), List.mem_of_getElem? (List.getElem?_zip_eq_some.2 ⟨h1, h2⟩), ?_⟩
      simp only [if_true]
      exact hw.2 ⟨ui, h3⟩
  constructor
  · intro hwm
    obtain ⟨k, hk⟩ := List.mem_iff_getElem?.1 hwm
    have hkl := (List.getElem?_eq_some_iff.1 hk).1
    rw [hl] at hkl
    obtain ⟨c, h1, h2⟩ := hg k _ (List.getElem?_eq_getElem hkl)
    rw [hk] at h2; cases h2
    obtain ⟨b, ui, ub, e1, e2, e3⟩ := (hin _).1 (List.getElem_mem hkl)
    exact ⟨b, _, ui, ub, e1, e2, e3, hstep.1 h1⟩
  · rintro ⟨b, wi, ui, ub, e1, e2, e3, e4⟩
    obtain ⟨k, hk⟩ := List.mem_iff_getElem?.1 ((hin wi).2 ⟨b, ui, ub, e1, e2, e3⟩)
    obtain ⟨c, h1, h2⟩ := hg k _ hk
    have h1 := hstep.1 h1
    rw [e4] at h1
    cases h1
    exact List.mem_of_getElem? h2

/-- Everything known about the sample of one series. -/
theorem seriesSample_spec {rnd : List Nat → Nat → List Nat} (hr : SampleOk rnd) {mu : MatchUp α δ} {sf : ℚ} {n : Nat} {s : List Nat}
    (h : seriesSample rnd mu sf n = .ok s) :
    ∃ b M, mu.idx.n_mu.idxOf n = b ∧ n ∈ mu.idx.n_mu ∧ mu.idx.N_var[b]? = some M ∧
      s.length ≤ (⌊(M : ℚ) * sf⌋).toNat ∧
      ((∃ ws st, (∀ w, w ∈ ws ↔ mu.SeriesW n w) ∧ ws ≠ [] ∧ GreedyInv ws (rowCount ws) st ∧ s.Subperm st.2 ∧
          (s = st.2 ∨ s.length = (⌊(M : ℚ) * sf⌋).toNat ∧ (⌊(M : ℚ) * sf⌋).toNat < st.2.length)) ∨
       ((∀ w, ¬ mu.SeriesW n w) ∧ s.Subperm (List.range M) ∧ s.length = (⌊(M : ℚ) * sf⌋).toNat ∧ s.Pairwise (· ≤ ·))) := by
  unfold seriesSample at h
  obtain ⟨b, hb, h⟩ := bind_ok.1 h
  obtain ⟨M, hM, h⟩ := bind_ok.1 h
  obtain ⟨ws, hws, h⟩ := bind_ok.1 h
  have hmem : n ∈ mu.idx.n_mu := by
    unfold pyIndex at hb
    split at hb
    · assumption
    · cases hb
  rw [pyIndex_of_mem hmem] at hb
  cases hb
  refine ⟨_, M, rfl, hmem, pyGet_ok.1 hM, ?_⟩
  set k := (⌊(M : ℚ) * sf⌋).toNat with hk
  by_cases hne : ws = []
  · simp only [hne, ne_eq, not_true_eq_false, if_false] at h
    obtain ⟨t, ht, h⟩ := bind_ok.1 h
    rw [pure_ok] at h
    obtain ⟨h1, h2⟩ := pySample_ok hr ht
    have hp := pySorted_perm t
    have hsl : s.length = k := by rw [← h, hp.length_eq, h1]
    refine ⟨by omega, .inr ⟨?_, ?_, hsl, ?_⟩⟩
    · intro w hw
      have := (mem_seriesWs hws w).2 hw
      simp [hne] at this
    · rw [← h]; exact hp.subperm.trans h2
    · rw [← h]; exact pySorted_sorted t
  · rw [if_pos hne] at h
    obtain ⟨idxs, hidxs, h⟩ := bind_ok.1 h
    unfold getSampleIdxs at hidxs
    obtain ⟨g, hg, hidxs⟩ := bind_ok.1 hidxs
    obtain ⟨st, hI, hst⟩ := greedyRows_spec hg
    subst hst
    have main : idxs.length ≤ k ∧ idxs.Subperm st.2 ∧ (idxs = st.2 ∨ idxs.length = k ∧ k < st.2.length) := by
      split at hidxs
      · rename_i hlt
        obtain ⟨a, c⟩ := pySample_ok hr hidxs
        exact ⟨by omega, c, .inr ⟨a, hlt⟩⟩
      · rw [pure_ok] at hidxs
        subst hidxs
        exact ⟨by omega, List.Subperm.refl _, .inl rfl⟩
    rw [if_neg (by omega), pure_ok] at h
    subst h
    exact ⟨main.1, .inl ⟨ws, st, mem_seriesWs hws, hne, hI, main.2.1, main.2.2⟩⟩

end Verif
namespace Verif
variable {α β δ : Type}

theorem sampleBlocks_series {bounds bs : List Nat} {samples : List (List Nat)} {values init out : List β}
    (h : sampleBlocks bounds bs samples values init = .ok out) :
    ∃ parts : List (List β), parts.length = samples.length ∧ openSeries init bs parts = .ok out ∧
      ∀ (b : Nat) (s : List Nat), samples[b]? = some s → ∃ lo hi v, bounds[b]? = some lo ∧ bounds[b + 1]? = some hi ∧
        takeAt (slice values lo hi) s = .ok v ∧ parts[b]? = some v := by
  have key : ∀ (rest : List (List Nat)) (n : Nat) (out0 : List β),
      (rest.zipIdx n).foldlM (fun out (si : List Nat × Nat) => do
        let a ← pyGet bounds si.2
        let b ← pyGet bounds (si.2 + 1)
        let a' ← pyGet bs si.2
        let b' ← pyGet bs (si.2 + 1)
        let v ← takeAt (slice values a b) si.1
        setSlice out a' b' v) out0 = (.ok out : Py (List β)) →
      ∃ parts : List (List β), parts.length = rest.length ∧
        (parts.zipIdx n).foldlM (fun out (di : List β × Nat) => do
          let a ← pyGet bs di.2
          let b ← pyGet bs (di.2 + 1)
          setSlice out a b di.1) out0 = (.ok out : Py (List β)) ∧
        ∀ (b : Nat) (s : List Nat), rest[b]? = some s → ∃ lo hi v, bounds[n + b]? = some lo ∧ bounds[n + b + 1]? = some hi ∧
          takeAt (slice values lo hi) s = .ok v ∧ parts[b]? = some v := by
    intro rest
    induction rest with
    | nil =>
      intro n out0 h
      exact ⟨[], rfl, by simpa using h, by simp⟩
    | cons s rest ih =>
      intro n out0 h
      rw [List.zipIdx_cons, List.foldlM_cons] at h
      obtain ⟨out1, h1, h2⟩ := bind_ok.1 h
      obtain ⟨lo, hlo, h1⟩ := bind_ok.1 h1
      obtain ⟨hi, hhi, h1⟩ := bind_ok.1 h1
      obtain ⟨a', ha', h1⟩ := bind_ok.1 h1
      obtain ⟨b', hb', h1⟩ := bind_ok.1 h1
      obtain ⟨v, hv, h1⟩ := bind_ok.1 h1
      obtain ⟨parts, hl, hf, hg⟩ := ih (n + 1) out1 h2
      refine ⟨v :: parts, by simp [hl], ?_, ?_⟩
      · rw [List.zipIdx_cons, List.foldlM_cons]
        refine bind_ok.2 ⟨out1, ?_, hf⟩
        exact bind_ok.2 ⟨a', ha', bind_ok.2 ⟨b', hb', h1⟩⟩
      · intro b t hb
        cases b with
        | zero =>
          simp only [List.getElem?_cons_zero, Option.some.injEq] at hb
          subst hb
          exact ⟨lo, hi, v, pyGet_ok.1 hlo, pyGet_ok.1 hhi, hv, by simp⟩
        | succ b =>
          simp only [List.getElem?_cons_succ] at hb
          obtain ⟨lo, hi, v, e1, e2, e3, e4⟩ := hg b t hb
          refine ⟨lo, hi, v, ?_, ?_, e3, by simpa using e4⟩
          · rw [← e1]; congr 1; omega
          · rw [← e2]; congr 1; omega
  obtain ⟨parts, h1, h2, h3⟩ := key samples 0 init h
  refine ⟨parts, h1, h2, ?_⟩
  intro b s hb
  obtain ⟨lo, hi, v, e1, e2, e3, e4⟩ := h3 b s hb
  exact ⟨lo, hi, v, by simpa using e1, by simpa using e2, e3, e4⟩

theorem takeAt_ok {l v : List β} {s : List Nat} (h : takeAt l s = .ok v) :
    v.length = s.length ∧ ∀ (k p : Nat), s[k]? = some p → ∃ x, l[p]? = some x ∧ v[k]? = some x := by
  obtain ⟨h1, h2⟩ := mapM_ok_get h
  refine ⟨h1, ?_⟩
  intro k p hk
  obtain ⟨x, hx, hv⟩ := h2 k p hk
  exact ⟨x, pyGet_ok.1 hx, hv⟩

theorem getElem?_flatten {data : List (List β)} {b k : Nat} {v : List β} {x : β} (hb : data[b]? = some v) (hk : v[k]? = some x) :
    data.flatten[((data.map List.length).take b).sum + k]? = some x := by
  have h := slice_flatten data hb
  have hkl := (List.getElem?_eq_some_iff.1 hk).1
  have hs := slice_getElem? data.flatten ((data.map List.length).take b).sum ((data.map List.length).take (b+1)).sum k
  rw [h, hk] at hs
  split at hs
  · exact hs.symm
  · cases hs

/-- The block-wise copy: with target boundaries the running totals of the sample sizes, entry `k` of block `b` of the result is the
source entry at the sampled position. -/
theorem sampleBlocks_ok {bounds bs : List Nat} {samples : List (List Nat)} {values init out : List β}
    (h : sampleBlocks bounds bs samples values init = .ok out) (hbs : bs = prefixSums (samples.map List.length))
    (hi : init.length = (samples.map List.length).sum) :
    out.length = (samples.map List.length).sum ∧
    ∀ (b : Nat) (s : List Nat) (k p : Nat), samples[b]? = some s → s[k]? = some p →
      ∃ lo hi lo' x, bounds[b]? = some lo ∧ bounds[b + 1]? = some hi ∧ lo + p < hi ∧ bs[b]? = some lo' ∧
        values[lo + p]? = some x ∧ out[lo' + k]? = some x := by
  obtain ⟨parts, hl, hop, hg⟩ := sampleBlocks_series h
  have hlens : parts.map List.length = samples.map List.length := by
    apply List.ext_getElem?
    intro b
    rw [List.getElem?_map, List.getElem?_map]
    cases hsb : samples[b]? with
    | none =>
      have : parts[b]? = none := by rw [List.getElem?_eq_none_iff] at hsb ⊢; omega
      rw [this]; rfl
    | some s =>
      obtain ⟨lo, hi, v, _, _, e3, e4⟩ := hg b s hsb
      rw [e4]
      simp [(takeAt_ok e3).1]
  rw [hbs, ← hlens, openSeries_ok parts init _ rfl (by rw [hlens]; exact hi)] at hop
  cases hop
  refine ⟨by rw [List.length_flatten, hlens], ?_⟩
  intro b s k p hb hk
  obtain ⟨lo, hi, v, e1, e2, e3, e4⟩ := hg b s hb
  obtain ⟨x, hx, hv⟩ := (takeAt_ok e3).2 k p hk
  rw [slice_getElem?] at hx
  split at hx
  · refine ⟨lo, hi, _, x, e1, e2, by omega, ?_, hx, getElem?_flatten e4 hv⟩
    rw [hbs, ← hlens]
    apply prefixSums_getElem?_of_le
    have := (List.getElem?_eq_some_iff.1 e4).1
    simp; omega
  · cases hx

theorem foldl_max_eq (l : List Nat) (N : Nat) (h1 : ∀ x ∈ l, x ≤ N) (h2 : N = 0 ∨ N ∈ l) : l.foldl max 0 = N := by
  have a : ∀ (l : List Nat) (z : Nat), (∀ x ∈ l, x ≤ N) → z ≤ N → l.foldl max z ≤ N := by
    intro l
    induction l with
    | nil => intro z _ h; simpa using h
    | cons y l ih =>
      intro z h hz
      exact ih _ (fun x hx => h x (by simp [hx])) (by have := h y (by simp); omega)
  have b : ∀ (l : List Nat) (z x : Nat), (x ∈ l ∨ x ≤ z) → x ≤ l.foldl max z := by
    intro l
    induction l with
    | nil => intro z x h; simpa using h
    | cons y l ih =>
      intro z x h
      apply ih
      rcases h with h | h
      · rcases List.mem_cons.1 h with rfl | h
        · right; omega
        · left; exact h
      · right; omega
  apply Nat.le_antisymm (a l 0 h1 (Nat.zero_le _))
  rcases h2 with h | h
  · rw [h]; exact Nat.zero_le _
  · exact b l 0 N (.inl h)

theorem seriesSet_eq {x : Idx} (h : x.WF) : seriesSet x.n_mu = List.range' 1 x.Nm.length := by
  have hin : ∀ n ∈ x.n_mu, 1 ≤ n ∧ n ≤ x.Nm.length := by
    intro n hn
    obtain ⟨b, hb⟩ := List.mem_iff_getElem?.1 hn
    obtain ⟨h1, M, hM, _⟩ := h.block b n hb
    have := (List.getElem?_eq_some_iff.1 hM).1
    omega
  have hmax : x.n_mu.foldl max 0 = x.Nm.length := by
    apply foldl_max_eq _ _ (fun n hn => (hin n hn).2)
    by_cases h0 : x.Nm.length = 0
    · exact .inl h0
    · exact .inr (h.all _ (by omega) (Nat.le_refl _))
  unfold seriesSet
  rw [hmax, List.range_eq_range', List.range'_succ, ← List.singleton_append, List.filter_append]
  have h0 : [0].filter (· ∈ x.n_mu) = [] := by
    rw [List.filter_eq_nil_iff]
    intro a ha
    have : a = 0 := by simpa using ha
    subst this
    intro hc
    have := hin 0 (by simpa using hc)
    omega
  rw [h0, List.nil_append, List.filter_eq_self.2]
  intro a ha
  have := List.mem_range'_1.1 ha
  simpa using h.all a (by omega) (by omega)

theorem lookupSample_ok {rnd : List Nat → Nat → List Nat} {mu : MatchUp α δ} {sf : ℚ} {s : List (Nat × List Nat)}
    (hs : samplingIdxs rnd mu sf = .ok s) {n : Nat} {t : List Nat} (h : lookupSample s n = .ok t) :
    seriesSample rnd mu sf n = .ok t := by
  unfold lookupSample at h
  split at h
  · rename_i e he
    cases h
    have hmem := List.mem_of_find?_eq_some he
    have hkey := List.find?_some he
    simp only [beq_iff_eq] at hkey
    obtain ⟨k, hk⟩ := List.mem_iff_getElem?.1 hmem
    obtain ⟨hl, hg⟩ := mapM_ok_get hs
    have hkl := (List.getElem?_eq_some_iff.1 hk).1
    rw [hl] at hkl
    obtain ⟨c, h1, h2⟩ := hg k _ (List.getElem?_eq_getElem hkl)
    rw [hk] at h2; cases h2
    obtain ⟨t, ht, h1⟩ := bind_ok.1 h1
    rw [pure_ok] at h1
    subst h1
    simp only at hkey ⊢
    rw [← hkey]; exact ht
  · cases h

theorem samplingIdxs_get {rnd : List Nat → Nat → List Nat} {mu : MatchUp α δ} {sf : ℚ} {s : List (Nat × List Nat)}
    (hwf : mu.idx.WF) (hs : samplingIdxs rnd mu sf = .ok s) :
    s.length = mu.idx.Nm.length ∧ ∀ i, i < mu.idx.Nm.length → ∃ t, seriesSample rnd mu sf (i + 1) = .ok t ∧ s[i]? = some (i + 1, t) := by
  unfold samplingIdxs at hs
  rw [seriesSet_eq hwf] at hs
  obtain ⟨hl, hg⟩ := mapM_ok_get hs
  refine ⟨by simpa using hl, ?_⟩
  intro i hi
  obtain ⟨c, h1, h2⟩ := hg i (i + 1) (by rw [List.getElem?_range' hi]; congr 1; omega)
  obtain ⟨t, ht, h1⟩ := bind_ok.1 h1
  rw [pure_ok] at h1
  exact ⟨t, ht, by rw [h2, h1]⟩

end Verif
