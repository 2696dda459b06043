import Verif.Lemmas.ReaderIdx
import Verif.Spec.Reader
/-
Helper lemmas about the block and series write loops of the reader.
-/
set_option autoImplicit false
namespace Verif
variable {α β κ : Type _}

theorem writeBlock_eq [DecidableEq κ] {keys : List κ} (hk : keys.Nodup) {N : List Nat} (hlen : N.length = keys.length)
    {vals : List α} (hv : vals.length = N.sum) {b : Nat} {k : κ} {d : List α} (hb : keys[b]? = some k)
    (hd : N[b]? = some d.length) :
    writeBlock keys (prefixSums N) vals (k, .ok d) =
      .ok (vals.take (N.take b).sum ++ d ++ vals.drop (N.take (b+1)).sum) := by
  have hbl : b < keys.length := (List.getElem?_eq_some_iff.1 hb).1
  have h1 : pyIndex keys k = .ok b := by
    rw [pyIndex_of_mem (List.mem_of_getElem? hb), idxOf_of_getElem? hk hb]
  have h2 : pyGet (prefixSums N) b = .ok (N.take b).sum := by
    unfold pyGet; rw [prefixSums_getElem?_of_le N (by omega)]
  have h3 : pyGet (prefixSums N) (b+1) = .ok (N.take (b+1)).sum := by
    unfold pyGet; rw [prefixSums_getElem?_of_le N (by omega)]
  unfold writeBlock
  simp only [h1, h2, h3, bind, Except.bind]
  have hs := take_succ_sum N hd
  apply setSlice_eq
  · omega
  · rw [hv]
    have := take_sum_le_take_sum N (i := b+1) (j := N.length) (by omega)
    rwa [List.take_length] at this
  · omega

theorem writeBlocks_ok [DecidableEq κ] {keys : List κ} (hk : keys.Nodup) {N : List Nat} (hlen : N.length = keys.length)
    (jobs : List (κ × Py (List α)))
    (hjobs : ∀ j ∈ jobs, ∃ (b : Nat) (d : List α), keys[b]? = some j.1 ∧ j.2 = .ok d ∧ N[b]? = some d.length)
    (vals : List α) (hv : vals.length = N.sum) :
    ∃ out, jobs.foldlM (writeBlock keys (prefixSums N)) vals = .ok out ∧ out.length = N.sum ∧
      (∀ (b : Nat) (k : κ), keys[b]? = some k → k ∉ jobs.map (·.1) →
        slice out (N.take b).sum (N.take (b+1)).sum = slice vals (N.take b).sum (N.take (b+1)).sum) ∧
      ((jobs.map (·.1)).Nodup → ∀ j ∈ jobs, ∀ (b : Nat) (d : List α), keys[b]? = some j.1 → j.2 = .ok d →
        slice out (N.take b).sum (N.take (b+1)).sum = d) := by
  induction jobs generalizing vals with
  | nil => exact ⟨vals, rfl, hv, fun _ _ _ _ => rfl, by simp⟩
  | cons j jobs ih =>
    obtain ⟨b, d, hb, hj, hd⟩ := hjobs j (by simp)
    have hw : writeBlock keys (prefixSums N) vals j =
        .ok (vals.take (N.take b).sum ++ d ++ vals.drop (N.take (b+1)).sum) := by
      have := writeBlock_eq hk hlen hv hb hd
      rw [← hj] at this
      exact this
    have hbl : b < keys.length := (List.getElem?_eq_some_iff.1 hb).1
    have hs := take_succ_sum N hd
    have hle : (N.take (b+1)).sum ≤ vals.length := by
      rw [hv]
      have := take_sum_le_take_sum N (i := b+1) (j := N.length) (by omega)
      rwa [List.take_length] at this
    have hnl := set_length (l := vals) (a := (N.take b).sum) (b := (N.take (b+1)).sum) (v := d) (by omega) hle (by omega)
    obtain ⟨out, ho, hol, h1, h2⟩ := ih (fun j' hj' => hjobs j' (by simp [hj'])) _ (hnl.trans hv)
    refine ⟨out, ?_, hol, ?_, ?_⟩
    · rw [List.foldlM_cons, hw]; exact ho
    · intro c k hc hnot
      simp only [List.map_cons, List.mem_cons, not_or] at hnot
      rw [h1 c k hc hnot.2]
      apply slice_set_disjoint (by omega) hle (by omega)
      rcases Nat.lt_trichotomy c b with h | h | h
      · left; exact take_sum_le_take_sum N (by omega)
      · subst h; rw [hb] at hc; cases hc; exact absurd rfl hnot.1
      · right; exact take_sum_le_take_sum N (by omega)
    · intro hnd j' hj' c e hc he
      simp only [List.map_cons, List.nodup_cons] at hnd
      simp only [List.mem_cons] at hj'
      rcases hj' with rfl | hj'
      · have hcb : c = b := by
          have e1 := idxOf_of_getElem? hk hc
          have e2 := idxOf_of_getElem? hk hb
          omega
        subst hcb
        rw [hj] at he; cases he
        rw [h1 c _ hc hnd.1]
        exact slice_set_same (by omega) hle (by omega)
      · exact h2 hnd.2 j' hj' c e hc he

/-- The per-series loop writes each data vector to its own slice. -/
theorem openSeries_ok (data : List (List α)) (init : List α) (N : List Nat) (hN : N = data.map List.length)
    (hi : init.length = N.sum) :
    openSeries init (prefixSums N) data = .ok data.flatten := by
  have key : ∀ (rest : List (List α)) (done : List (List α)) (out : List α), data = done ++ rest →
      out.length = N.sum → out.take (N.take done.length).sum = done.flatten →
      (rest.zipIdx done.length).foldlM (fun out (di : List α × Nat) => do
        let a ← pyGet (prefixSums N) di.2
        let b ← pyGet (prefixSums N) (di.2 + 1)
        setSlice out a b di.1) out = (.ok data.flatten : Py (List α)) := by
    intro rest
    induction rest with
    | nil =>
      intro done out hd hl ht
      simp only [List.append_nil] at hd
      subst hd
      simp only [List.zipIdx_nil, List.foldlM_nil]
      rw [← ht, show N.take data.length = N by rw [hN]; simp, ← hl, List.take_length]; rfl
    | cons r rest ih =>
      intro done out hd hl ht
      have hlen : N.length = data.length := by rw [hN]; simp
      have hdl : done.length < data.length := by rw [hd]; simp
      have hr : N[done.length]? = some r.length := by rw [hN, hd]; simp
      have hs := take_succ_sum N hr
      have hle : (N.take (done.length+1)).sum ≤ out.length := by
        rw [hl]
        have := take_sum_le_take_sum N (i := done.length+1) (j := N.length) (by omega)
        rwa [List.take_length] at this
      rw [List.zipIdx_cons, List.foldlM_cons]
      have h2 : pyGet (prefixSums N) done.length = .ok (N.take done.length).sum := by
        unfold pyGet; rw [prefixSums_getElem?_of_le N (by omega)]
      have h3 : pyGet (prefixSums N) (done.length+1) = .ok (N.take (done.length+1)).sum := by
        unfold pyGet; rw [prefixSums_getElem?_of_le N (by omega)]
      simp only [h2, h3, bind, Except.bind]
      rw [setSlice_eq (by omega) hle (by omega)]
      have := ih (done ++ [r]) (out.take (N.take done.length).sum ++ r ++ out.drop (N.take (done.length+1)).sum)
        (by simp [hd]) (by rw [set_length (by omega) hle (by omega)]; exact hl) (by
          rw [ht]
          have hl1 : (N.take (done ++ [r]).length).sum = (done.flatten ++ r).length := by
            have : done.flatten.length = (N.take done.length).sum := by rw [← ht]; simp; omega
            simp only [List.length_append, List.length_singleton]
            omega
          rw [hl1, List.take_left]
          simp)
      simpa [bind, Except.bind] using this
  have := key data [] init rfl hi (by simp)
  simpa [openSeries] using this

/-- Slicing a concatenation at its prefix sums gives the parts. -/
theorem slice_flatten (data : List (List α)) {i : Nat} {d : List α} (h : data[i]? = some d) :
    slice data.flatten ((data.map List.length).take i).sum ((data.map List.length).take (i+1)).sum = d := by
  obtain ⟨hi, hd⟩ := List.getElem?_eq_some_iff.1 h
  have e : data = data.take i ++ d :: data.drop (i+1) := by
    rw [← hd, List.getElem_cons_drop]; simp
  have hs := take_succ_sum (data.map List.length) (i := i) (n := d.length) (by simp [h])
  have hl : (data.take i).flatten.length = ((data.map List.length).take i).sum := by
    rw [List.length_flatten, List.map_take]
  unfold slice
  rw [hs, Nat.add_sub_cancel_left, ← hl]
  conv_lhs => rw [show data.flatten = (data.take i).flatten ++ (d ++ (data.drop (i+1)).flatten) by
    conv_lhs => rw [e]
    simp]
  rw [List.drop_left, List.take_left]

end Verif
