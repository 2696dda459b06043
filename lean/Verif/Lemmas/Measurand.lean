import Verif.Model.Measurand
import Verif.Lemmas.Layout
import Verif.Lemmas.Transform
import Mathlib.Data.List.Sort
/-
Helper lemmas for the evaluation of measurands.
-/
set_option autoImplicit false
namespace Verif
variable {α δ : Type}

theorem setSlice_mid (A Z B Y : List α) (hY : Y.length = Z.length) :
    slice (A ++ Z ++ B) A.length (A.length + Z.length) = Z ∧
    setSlice (A ++ Z ++ B) A.length (A.length + Z.length) Y = .ok (A ++ Y ++ B) := by
  constructor
  · unfold slice
    rw [List.append_assoc, List.drop_left, Nat.add_sub_cancel_left, List.take_left]
  · rw [setSlice_eq (by omega) (by simp) (by omega)]
    congr 1
    rw [List.append_assoc A Z B, List.take_left, ← List.append_assoc, ← List.length_append, List.drop_left]

theorem selBounds_eq {x : Idx} {sel : List Nat} (hs : sel.Pairwise (· < ·)) (hr : ∀ n ∈ sel, 1 ≤ n ∧ n ≤ x.Nm.length) :
    selBounds x sel = prefixSums (sel.map fun n => x.Nm.getD (n - 1) 0) := by
  unfold selBounds
  congr 1
  have hz : x.Nm.zipIdx = (List.range x.Nm.length).map fun i => (x.Nm.getD i 0, i) := by
    apply List.ext_getElem?
    intro i
    by_cases hi : i < x.Nm.length
    · simp [hi]
    · simp [hi]
  rw [hz, List.filter_map, List.map_map]
  have hf : (List.range x.Nm.length).filter ((fun p : Nat × Nat => sel.contains (p.2 + 1)) ∘ fun i => (x.Nm.getD i 0, i)) =
      sel.map (· - 1) := by
    refine List.Pairwise.eq_of_mem_iff (r := (· < ·)) ((List.pairwise_lt_range (n := x.Nm.length)).filter _) ?_ ?_
    · rw [List.pairwise_map]
      refine hs.imp_of_mem ?_
      intro a b ha hb hab
      have := hr a ha; have := hr b hb
      omega
    · intro i
      simp only [List.mem_filter, List.mem_range, Function.comp, List.contains_iff_mem, List.mem_map]
      constructor
      · rintro ⟨_, h⟩; exact ⟨i + 1, h, rfl⟩
      · rintro ⟨n, hn, rfl⟩
        have := hr n hn
        exact ⟨by omega, by rw [show n - 1 + 1 = n by omega]; exact hn⟩
  rw [hf, List.map_map]
  rfl

/-- The row-filling loop over an increasing selection of existing series: every part is replaced by what `f` makes of it. -/
theorem fillRows_ok {x : Idx} {sel : List Nat} {f : Nat → Nat → List α → Py (List α)} {pairs : Nat → Nat × Nat}
    {z1 z2 y1 y2 : Nat → List α}
    (hs : sel.Pairwise (· < ·)) (hr : ∀ n ∈ sel, 1 ≤ n ∧ n ≤ x.Nm.length)
    (hp : ∀ n ∈ sel, x.Im[n - 1]? = some (pairs n))
    (hz : ∀ n ∈ sel, (z1 n).length = x.Nm.getD (n - 1) 0 ∧ (z2 n).length = x.Nm.getD (n - 1) 0)
    (hy : ∀ n ∈ sel, (y1 n).length = x.Nm.getD (n - 1) 0 ∧ (y2 n).length = x.Nm.getD (n - 1) 0)
    (hf : ∀ n ∈ sel, f n (pairs n).1 (z1 n) = .ok (y1 n) ∧ f n (pairs n).2 (z2 n) = .ok (y2 n)) :
    fillRows x sel f ((sel.map z1).flatten, (sel.map z2).flatten) = .ok ((sel.map y1).flatten, (sel.map y2).flatten) := by
  unfold fillRows
  have hb := selBounds_eq hs hr
  have hlen : ∀ (l : List Nat) (g : Nat → List α), (∀ n ∈ l, (g n).length = x.Nm.getD (n - 1) 0) →
      ((l.map g).flatten).length = (l.map fun n => x.Nm.getD (n - 1) 0).sum := by
    intro l g h
    rw [List.length_flatten, List.map_map]
    congr 1
    exact List.map_congr_left h
  have key : ∀ (rest done : List Nat), sel = done ++ rest →
      (rest.zipIdx done.length).foldlM (fun (out : List α × List α) (nk : Nat × Nat) => do
        let pair ← pyGet x.Im (nk.1 - 1)
        let lo ← pyGet (selBounds x sel) nk.2
        let hi ← pyGet (selBounds x sel) (nk.2 + 1)
        let y1 ← f nk.1 pair.1 (slice out.1 lo hi)
        let c1 ← setSlice out.1 lo hi y1
        let y2 ← f nk.1 pair.2 (slice out.2 lo hi)
        let c2 ← setSlice out.2 lo hi y2
        pure (c1, c2)) ((done.map y1).flatten ++ (rest.map z1).flatten, (done.map y2).flatten ++ (rest.map z2).flatten)
      = (.ok ((sel.map y1).flatten, (sel.map y2).flatten) : Py (List α × List α)) := by
    intro rest
    induction rest with
    | nil =>
      intro done hd
      rw [List.append_nil] at hd
      subst hd
      simp [pure, Except.pure]
    | cons n rest ih =>
      intro done hd
      have hn : n ∈ sel := by rw [hd]; simp
      have hl : sel.length = done.length + (rest.length + 1) := by rw [hd]; simp
      rw [List.zipIdx_cons, List.foldlM_cons]
      have hlo : pyGet (selBounds x sel) done.length = .ok (done.map fun n => x.Nm.getD (n - 1) 0).sum := by
        rw [hb, pyGet_prefixSums _ (by simp; omega), hd]; simp
      have hhi : pyGet (selBounds x sel) (done.length + 1) =
          .ok ((done.map fun n => x.Nm.getD (n - 1) 0).sum + x.Nm.getD (n - 1) 0) := by
        rw [hb, pyGet_prefixSums _ (by simp; omega)]
        rw [take_succ_sum _ (n := x.Nm.getD (n - 1) 0) (by rw [hd]; simp)]
        rw [hd]; simp
      have hdone : ∀ m ∈ done, m ∈ sel := fun m hm => by rw [hd]; simp [hm]
      have l1 := hlen done y1 (fun m hm => (hy m (hdone m hm)).1)
      have l2 := hlen done y2 (fun m hm => (hy m (hdone m hm)).2)
      obtain ⟨s1, w1⟩ := setSlice_mid (done.map y1).flatten (z1 n) (rest.map z1).flatten (y1 n) (by rw [(hy n hn).1, (hz n hn).1])
      obtain ⟨s2, w2⟩ := setSlice_mid (done.map y2).flatten (z2 n) (rest.map z2).flatten (y2 n) (by rw [(hy n hn).2, (hz n hn).2])
      rw [l1, (hz n hn).1] at s1 w1
      rw [l2, (hz n hn).2] at s2 w2
      simp only [List.map_cons, List.flatten_cons, ← List.append_assoc]
      have hpp : pyGet x.Im (n - 1) = .ok (pairs n) := by rw [pyGet, hp n hn]
      refine bind_ok.2 ⟨((done.map y1).flatten ++ y1 n ++ (rest.map z1).flatten, (done.map y2).flatten ++ y2 n ++ (rest.map z2).flatten), ?_, ?_⟩
      · refine bind_ok.2 ⟨_, hpp, bind_ok.2 ⟨_, hlo, bind_ok.2 ⟨_, hhi, ?_⟩⟩⟩
        rw [s1, s2]
        exact bind_ok.2 ⟨_, (hf n hn).1, bind_ok.2 ⟨_, w1, bind_ok.2 ⟨_, (hf n hn).2, bind_ok.2 ⟨_, w2, rfl⟩⟩⟩⟩
      · have := ih (done ++ [n]) (by simp [hd])
        simpa using this
  have := key sel [] rfl
  simpa using this

theorem flatten_replicate_zeros [Zero α] (l : List Nat) (N : Nat → Nat) :
    List.replicate (l.map N).sum (0 : α) = (l.map fun n => List.replicate (N n) (0 : α)).flatten := by
  induction l with
  | nil => rfl
  | cons n l ih => simp [List.replicate_add, ih]

/-- Evaluation of the measurand over an increasing selection of existing series. -/
theorem evaluateMeasurand_ok [Zero α] {ms : Evaluable α δ} {arg : SelArg} {sel : List Nat} {pairs : Nat → Nat × Nat} {y1 y2 : Nat → List α}
    (harg : arg.series ms.mu.idx = sel)
    (hs : sel.Pairwise (· < ·)) (hr : ∀ n ∈ sel, 1 ≤ n ∧ n ≤ ms.mu.idx.Nm.length)
    (hp : ∀ n ∈ sel, ms.mu.idx.Im[n - 1]? = some (pairs n))
    (hy : ∀ n ∈ sel, (y1 n).length = ms.mu.idx.Nm.getD (n - 1) 0 ∧ (y2 n).length = ms.mu.idx.Nm.getD (n - 1) 0)
    (hf : ∀ n ∈ sel, (∃ J, sideMeasurand ms n (pairs n).1 = .ok (y1 n, J)) ∧ ∃ J, sideMeasurand ms n (pairs n).2 = .ok (y2 n, J)) :
    evaluateMeasurand ms arg = .ok ((sel.map y1).flatten, (sel.map y2).flatten) := by
  unfold evaluateMeasurand
  rw [harg]
  simp only
  rw [selBounds_eq hs hr]
  refine bind_ok.2 ⟨(sel.map fun n => ms.mu.idx.Nm.getD (n - 1) 0).sum, ?_, ?_⟩
  · rw [prefixSums_length, Nat.add_sub_cancel, pyGet_prefixSums _ (Nat.le_refl _), List.take_length]
  · rw [flatten_replicate_zeros]
    refine fillRows_ok (pairs := pairs) hs hr hp (by intro n _; simp) hy ?_
    intro n hn
    obtain ⟨⟨J1, h1⟩, J2, h2⟩ := hf n hn
    exact ⟨bind_ok.2 ⟨_, h1, rfl⟩, bind_ok.2 ⟨_, h2, rfl⟩⟩

/-- Evaluation of the adjusted measurand over an increasing selection of existing series. -/
theorem evaluateAdjusted_ok [Zero α] {ms : Evaluable α δ} {arg : SelArg} {sel : List Nat} {pairs : Nat → Nat × Nat} {y1 y2 a1 a2 : Nat → List α}
    (harg : arg.series ms.mu.idx = sel)
    (hs : sel.Pairwise (· < ·)) (hr : ∀ n ∈ sel, 1 ≤ n ∧ n ≤ ms.mu.idx.Nm.length)
    (hp : ∀ n ∈ sel, ms.mu.idx.Im[n - 1]? = some (pairs n))
    (hy : ∀ n ∈ sel, (y1 n).length = ms.mu.idx.Nm.getD (n - 1) 0 ∧ (y2 n).length = ms.mu.idx.Nm.getD (n - 1) 0)
    (ha : ∀ n ∈ sel, (a1 n).length = ms.mu.idx.Nm.getD (n - 1) 0 ∧ (a2 n).length = ms.mu.idx.Nm.getD (n - 1) 0)
    (hf : ∀ n ∈ sel, (∃ J, sideMeasurand ms n (pairs n).1 = .ok (y1 n, J)) ∧ ∃ J, sideMeasurand ms n (pairs n).2 = .ok (y2 n, J))
    (hadj : ∀ n ∈ sel, (∃ g d, ms.adjustment_model[(pairs n).1]? = some g ∧ g (y1 n) = .ok (a1 n, d)) ∧
      ∃ g d, ms.adjustment_model[(pairs n).2]? = some g ∧ g (y2 n) = .ok (a2 n, d)) :
    evaluateAdjusted ms arg = .ok ((sel.map a1).flatten, (sel.map a2).flatten) := by
  unfold evaluateAdjusted
  refine bind_ok.2 ⟨_, evaluateMeasurand_ok harg hs hr hp hy hf, ?_⟩
  rw [harg]
  refine fillRows_ok (pairs := pairs) hs hr hp hy ha ?_
  intro n hn
  obtain ⟨⟨g1, d1, e1, f1⟩, g2, d2, e2, f2⟩ := hadj n hn
  exact ⟨bind_ok.2 ⟨_, pyGet_ok.2 e1, bind_ok.2 ⟨_, f1, rfl⟩⟩, bind_ok.2 ⟨_, pyGet_ok.2 e2, bind_ok.2 ⟨_, f2, rfl⟩⟩⟩

/-! ### The blocks of a sensor in a series -/

theorem filter_zipIdx_fst {β : Type} (l : List β) (p : β → Bool) (k : Nat) :
    ((l.zipIdx k).filter fun b => p b.1).map (·.1) = l.filter p := by
  induction l generalizing k with
  | nil => rfl
  | cons a l ih =>
    rw [List.zipIdx_cons, List.filter_cons, List.filter_cons]
    by_cases h : p a <;> simp [h, ih]

theorem blockList_sorted (Im : List (Nat × Nat)) (ms : List Nat) (mx : Nat) :
    (blockList Im ms mx).Pairwise fun a b => a.2.2 ≤ b.2.2 := by
  unfold blockList
  rw [List.pairwise_flatMap]
  constructor
  · intro k _
    apply List.pairwise_of_forall_mem_list
    intro a ha b hb
    simp only [List.mem_flatMap, List.mem_map] at ha hb
    obtain ⟨_, _, _, _, rfl⟩ := ha
    obtain ⟨_, _, _, _, rfl⟩ := hb
    exact Nat.le_refl _
  · refine (List.pairwise_lt_range (n := mx)).imp ?_
    intro k k' hk a ha b hb
    simp only [List.mem_flatMap, List.mem_map] at ha hb
    obtain ⟨_, _, _, _, rfl⟩ := ha
    obtain ⟨_, _, _, _, rfl⟩ := hb
    simp only; omega

/-- The blocks of one side of one file, in table order, are its covariates in order. -/
theorem IdxFacts.cov_blocks {ds : List (Dataset α)} {x : Idx} {mx : Nat} (h : IdxFacts ds x mx) (hc : ConsistentFiles ds)
    {i : Nat} {d : Dataset α} {s : Side α} (hd : ds[i]? = some d) (hs : s = d.s1 ∨ s = d.s2) :
    (covBlocks x (x.sensors.idxOf s.name) (i + 1)).map (fun b => x.blocks[b]?) =
      (List.range s.m).map fun c => some (x.sensors.idxOf s.name, i + 1, c + 1) := by
  set n := x.sensors.idxOf s.name with hn
  have hzip : x.n_sensor.zip x.n_mu = x.blocks.map fun b => (b.1, b.2.1) := by
    rw [h.n_sensor, h.n_mu, ← h.blocks]
    generalize x.blocks = l
    induction l with
    | nil => rfl
    | cons a l ih => simp [ih]
  have h1 : (covBlocks x n (i + 1)).map (fun b => x.blocks[b]?) =
      (x.blocks.filter fun b => (b.1, b.2.1) == (n, i + 1)).map some := by
    unfold covBlocks
    rw [hzip, List.zipIdx_map, List.filter_map, List.map_map, List.map_map]
    rw [← filter_zipIdx_fst x.blocks _ 0, List.map_map]
    apply List.map_congr_left
    intro b hb
    have := (List.mem_filter.1 hb).1
    rw [List.mem_zipIdx_iff_getElem?] at this
    simp [this]
  rw [h1]
  set L := x.blocks.filter fun b => (b.1, b.2.1) == (n, i + 1) with hL
  have hmem : ∀ b, b ∈ L ↔ b ∈ x.blocks ∧ b.1 = n ∧ b.2.1 = i + 1 := by
    intro b; rw [hL, List.mem_filter]; simp
  have hlt : (L.map (·.2.2)).Pairwise (· < ·) := by
    rw [List.pairwise_map]
    have hp1 : L.Pairwise fun a b => a.2.2 ≤ b.2.2 := by
      rw [hL, h.blocks]; exact (blockList_sorted _ _ _).filter _
    have hp2 : L.Nodup := (h.nodup hc).filter _
    refine (hp1.and hp2).imp_of_mem ?_
    rintro ⟨a1, a2, a3⟩ ⟨b1, b2, b3⟩ ha hb ⟨h1, h2⟩
    obtain ⟨_, e1, e2⟩ := (hmem _).1 ha
    obtain ⟨_, f1, f2⟩ := (hmem _).1 hb
    simp only at h1 e1 e2 f1 f2
    have : a3 ≠ b3 := by rintro rfl; exact h2 (by rw [e1, e2, f1, f2])
    simp only; omega
  have hcov : L.map (·.2.2) = (List.range s.m).map (· + 1) := by
    refine List.Pairwise.eq_of_mem_iff (r := (· < ·)) hlt ?_ ?_
    · rw [List.pairwise_map]
      exact (List.pairwise_lt_range).imp (by intros; omega)
    · intro c
      simp only [List.mem_map, List.mem_range]
      constructor
      · rintro ⟨⟨b1, b2, b3⟩, hb, rfl⟩
        obtain ⟨hb, e1, e2⟩ := (hmem _).1 hb
        simp only at e1 e2
        subst e1 e2
        obtain ⟨_, h1, d', s', hd', hs', hnn, hm⟩ := (h.mem_blocks hc).1 hb
        have hs1 : s ∈ ds.flatMap Dataset.sides := mem_sides.2 ⟨d, List.mem_of_getElem? hd, hs⟩
        have hs2 : s' ∈ ds.flatMap Dataset.sides := mem_sides.2 ⟨d', List.mem_of_getElem? hd', hs'⟩
        have : s'.m = s.m := by
          rw [← h.ms_eq hc hs1, ← h.ms_eq hc hs2, ← hnn]
        exact ⟨b3 - 1, by omega, by simp only; omega⟩
      · rintro ⟨c, hlt, rfl⟩
        exact ⟨(n, i + 1, c + 1), (hmem _).2 ⟨(h.mem_blocks hc).2 ⟨by omega, by omega, d, s, by simpa using hd, hs, hn, by omega⟩, rfl, rfl⟩, rfl⟩
  have hLeq : L = (L.map (·.2.2)).map fun c => (n, i + 1, c) := by
    rw [List.map_map]
    conv_lhs => rw [← List.map_id L]
    apply List.map_congr_left
    rintro ⟨b1, b2, b3⟩ hb
    obtain ⟨_, e1, e2⟩ := (hmem _).1 hb
    simp only at e1 e2
    simp [e1, e2]
  rw [hLeq, hcov]
  simp [Function.comp_def]

end Verif
