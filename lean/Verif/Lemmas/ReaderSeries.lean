import Verif.Lemmas.ReaderOpen
/-
Helper lemmas: totals, per-series arrays.
-/
set_option autoImplicit false
namespace Verif
variable {α β γ : Type}

theorem sum_map_flatMap (l : List α) (f : α → List β) (g : β → Nat) :
    ((l.flatMap f).map g).sum = (l.map fun a => ((f a).map g).sum).sum := by
  induction l with
  | nil => rfl
  | cons a l ih => simp [List.flatMap_cons, ih]

theorem sum_map_swap (l : List α) (m : List β) (F : α → β → Nat) :
    (l.map fun a => (m.map fun b => F a b).sum).sum = (m.map fun b => (l.map fun a => F a b).sum).sum := by
  induction l with
  | nil => simp
  | cons a l ih => simp [ih, List.sum_map_add]

theorem sum_range_ite (mx m M : Nat) (h : m ≤ mx) :
    ((List.range mx).map fun k => if k + 1 ≤ m then M else 0).sum = M * m := by
  induction mx generalizing m with
  | zero => simp at h; subst h; simp
  | succ n ih =>
    rw [List.range_succ]
    simp only [List.map_append, List.map_cons, List.map_nil, List.sum_append, List.sum_cons, List.sum_nil]
    by_cases hm : m ≤ n
    · rw [ih m hm, if_neg (by omega)]; omega
    · have : m = n + 1 := by omega
      subst this
      have h2 : ((List.range n).map fun k => if k + 1 ≤ n + 1 then M else 0) =
          ((List.range n).map fun k => if k + 1 ≤ n then M else 0) := by
        apply List.map_congr_left
        intro k hk
        have := List.mem_range.1 hk
        rw [if_pos (by omega), if_pos (by omega)]
      rw [h2, ih n (Nat.le_refl _), if_pos (Nat.le_refl _)]
      ring

theorem blockList_sum (Im : List (Nat × Nat)) (ms : List Nat) (mx : Nat) (g : Nat → Nat)
    (hms : ∀ s, ms.getD s 0 ≤ mx) :
    ((blockList Im ms mx).map fun b => g (b.2.1 - 1)).sum =
      (Im.zipIdx.map fun pi => g pi.2 * (ms.getD pi.1.1 0 + ms.getD pi.1.2 0)).sum := by
  unfold blockList
  rw [sum_map_flatMap]
  simp only [sum_map_flatMap]
  rw [sum_map_swap]
  congr 1
  apply List.map_congr_left
  rintro ⟨⟨a, b⟩, i⟩ _
  simp only [List.map_map, Function.comp_def, Nat.add_sub_cancel]
  have e : ∀ k, (((pairList (a, b)).filter (hasCov ms (k + 1))).map fun _ => g i).sum
      = (if k + 1 ≤ ms.getD a 0 then g i else 0) + (if k + 1 ≤ ms.getD b 0 then g i else 0) := by
    intro k
    simp only [pairList, List.filter_cons, List.filter_nil, hasCov, decide_eq_true_eq]
    split <;> split <;> simp
  simp only [e, List.sum_map_add]
  rw [sum_range_ite mx _ _ (hms a), sum_range_ite mx _ _ (hms b)]
  ring

theorem zipIdx_map_map_sum (l : List α) (f : α → β) (g : β → Nat → Nat) (n : Nat) :
    (((l.map f).zipIdx n).map fun p => g p.1 p.2) = ((l.zipIdx n).map fun p => g (f p.1) p.2) := by
  induction l generalizing n with
  | nil => rfl
  | cons a l ih => simp [List.zipIdx_cons, ih]

theorem IdxFacts.total {ds : List (Dataset α)} {x : Idx} {mx : Nat} (h : IdxFacts ds x mx) (hc : ConsistentFiles ds) :
    x.N_var.sum = (ds.map fun d => d.M * (d.s1.m + d.s2.m)).sum := by
  rw [h.N_var, h.n_mu, List.map_map]
  have := blockList_sum x.Im x.sensor_ms mx (fun n => (ds.map (·.M)).getD n 0) h.ms_le
  simp only [Function.comp_def] at this ⊢
  rw [this, h.Im,
    zipIdx_map_map_sum ds _ (fun (p : Nat × Nat) i => (ds.map (·.M)).getD i 0 *
      (x.sensor_ms.getD p.1 0 + x.sensor_ms.getD p.2 0)) 0]
  have e : (ds.zipIdx.map fun p => (ds.map (·.M)).getD p.2 0 *
      (x.sensor_ms.getD (x.sensors.idxOf p.1.s1.name) 0 + x.sensor_ms.getD (x.sensors.idxOf p.1.s2.name) 0))
      = ds.zipIdx.map fun p => p.1.M * (p.1.s1.m + p.1.s2.m) := by
    apply List.map_congr_left
    rintro ⟨d, i⟩ hmem
    rw [List.mem_zipIdx_iff_getElem?] at hmem
    simp only at hmem
    have hd := List.mem_of_getElem? hmem
    rw [h.ms_eq hc (mem_sides.2 ⟨d, hd, .inl rfl⟩), h.ms_eq hc (mem_sides.2 ⟨d, hd, .inr rfl⟩)]
    simp [List.getD, List.getElem?_map, hmem]
  rw [e]
  congr 1
  have := List.zipIdx_map_fst 0 ds
  conv_rhs => rw [← this, List.map_map]
  rfl

theorem IdxFacts.cNm_last {ds : List (Dataset α)} {x : Idx} {mx : Nat} (h : IdxFacts ds x mx) :
    pyGet x.cNm (x.cNm.length - 1) = .ok (ds.map (·.M)).sum := by
  rw [h.cNm, prefixSums_length, Nat.add_sub_cancel, pyGet, prefixSums_getElem?_of_le _ (Nat.le_refl _),
    List.take_length]

/-- One array written series by series. -/
theorem series_ok {ds : List (Dataset α)} {x : Idx} {mx : Nat} (h : IdxFacts ds x mx) (z : β) (f : Dataset α → List β)
    (hf : ∀ d ∈ ds, (f d).length = d.M) :
    openSeries (List.replicate (ds.map (·.M)).sum z) x.cNm (ds.map f) = .ok (ds.map f).flatten := by
  rw [h.cNm]
  have e : ds.map (·.M) = (ds.map f).map List.length := by
    rw [List.map_map]
    apply List.map_congr_left
    intro d hd; exact (hf d hd).symm
  exact openSeries_ok _ _ _ e (by simp)

theorem series_slice {ds : List (Dataset α)} (f : Dataset α → List β) (hf : ∀ d ∈ ds, (f d).length = d.M)
    {i : Nat} {d : Dataset α} (hd : ds[i]? = some d) :
    slice (ds.map f).flatten ((ds.map (·.M)).take i).sum ((ds.map (·.M)).take (i+1)).sum = f d := by
  have e : ds.map (·.M) = (ds.map f).map List.length := by
    rw [List.map_map]
    apply List.map_congr_left
    intro d hd; exact (hf d hd).symm
  rw [e]
  exact slice_flatten _ (by simp [hd])

theorem series_length {ds : List (Dataset α)} (f : Dataset α → List β) (hf : ∀ d ∈ ds, (f d).length = d.M) :
    (ds.map f).flatten.length = (ds.map (·.M)).sum := by
  rw [List.length_flatten, List.map_map]
  congr 1
  apply List.map_congr_left
  intro d hd; exact hf d hd

theorem IdxFacts.cNm_get {ds : List (Dataset α)} {x : Idx} {mx : Nat} (h : IdxFacts ds x mx) {i : Nat}
    (hi : i ≤ ds.length) : x.cNm[i]? = some ((ds.map (·.M)).take i).sum := by
  rw [h.cNm]; exact prefixSums_getElem?_of_le _ (by simpa using hi)

/-- The series getters on an opened object. -/
theorem getSensorArray_ok {ds : List (Dataset α)} {x : Idx} {mx : Nat} (h : IdxFacts ds x mx)
    (arr1 arr2 : Option (List β)) {i : Nat} {d : Dataset α} (hd : ds[i]? = some d) (name : String) :
    x.getSensorArray arr1 arr2 (i + 1) name =
      let a := ((ds.map (·.M)).take i).sum
      let b := ((ds.map (·.M)).take (i+1)).sum
      if name = d.s1.name then .ok (arr1.map fun l => slice l a b)
      else if name = d.s2.name then .ok (arr2.map fun l => slice l a b)
      else .error .indexError := by
  have hi : i < ds.length := (List.getElem?_eq_some_iff.1 hd).1
  have hmem := List.mem_of_getElem? hd
  have e1 : pyGet x.cNm (i + 1 - 1) = .ok ((ds.map (·.M)).take i).sum := by
    rw [Nat.add_sub_cancel, pyGet, h.cNm_get (by omega)]
  have e2 : pyGet x.cNm (i + 1) = .ok ((ds.map (·.M)).take (i+1)).sum := by
    rw [pyGet, h.cNm_get (by omega)]
  have e3 : pyGet x.Im (i + 1 - 1) = .ok (x.sensors.idxOf d.s1.name, x.sensors.idxOf d.s2.name) := by
    have hm : x.Im[i]? = some (x.sensors.idxOf d.s1.name, x.sensors.idxOf d.s2.name) := by
      rw [h.Im, List.getElem?_map, hd]; rfl
    rw [Nat.add_sub_cancel, pyGet, hm]
  have e4 : pyGet x.sensors (x.sensors.idxOf d.s1.name) = .ok d.s1.name := by
    rw [pyGet, h.sens_lookup (mem_sides.2 ⟨d, hmem, .inl rfl⟩)]
  have e5 : pyGet x.sensors (x.sensors.idxOf d.s2.name) = .ok d.s2.name := by
    rw [pyGet, h.sens_lookup (mem_sides.2 ⟨d, hmem, .inr rfl⟩)]
  unfold Idx.getSensorArray
  rw [e1, e2, e3]
  simp only [bind, Except.bind, e4, e5, pure, Except.pure]

/-- Changing the optional entries of `idx` does not matter to the getters. -/
theorem getSensorArray_additional (x : Idx) (n : Option (List String)) (arr1 arr2 : Option (List β)) :
    ({ x with additional_values_name := n } : Idx).getSensorArray arr1 arr2 = x.getSensorArray arr1 arr2 := rfl

theorem openMatchUp_nonempty {δ : Type} [Zero α] [DecidableEq α] {env : ReadEnv α δ} {ds : List (Dataset α)}
    {mu : MatchUp α δ} (h : openMatchUp env ds = .ok mu) : ds ≠ [] := by
  rintro rfl
  obtain ⟨x, hx, _⟩ := openMatchUp_inv h
  simp [getIdx, getIm, getSensors, pyMax, bind, Except.bind, pure, Except.pure] at hx

end Verif
