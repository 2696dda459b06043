import Verif.Model.WFile
import Verif.Lemmas.ReaderSeries
/-
Property C09: W and u matrices survive the file format.
-/
set_option autoImplicit false
namespace Verif
variable {α : Type} [Zero α]

omit [Zero α] in
theorem concatLoop_ok (parts : List (List α)) (init : List α) (hi : init.length = (parts.map List.length).sum) :
    concatLoop (parts.zip (parts.map List.length)) init = .ok parts.flatten := by
  have key : ∀ (rest : List (List α)) (k : Nat) (out : List α), out.length = k + (rest.map List.length).sum →
      (rest.zip (rest.map List.length)).foldlM (fun (st : Nat × List α) (p : List α × Nat) => do
        let out ← setSlice st.2 st.1 (st.1 + p.2) p.1
        pure (st.1 + p.2, out)) (k, out) = (.ok (k + (rest.map List.length).sum, out.take k ++ rest.flatten) : Py _) := by
    intro rest
    induction rest with
    | nil =>
      intro k out ho
      simp only [List.map_nil, List.sum_nil, Nat.add_zero] at ho
      simp [pure, Except.pure, ← ho]
    | cons p rest ih =>
      intro k out ho
      simp only [List.map_cons, List.sum_cons] at ho
      simp only [List.map_cons, List.zip_cons_cons, List.foldlM_cons]
      refine bind_ok.2 ⟨_, bind_ok.2 ⟨_, setSlice_eq (by omega) (by omega) (by simp), rfl⟩, ?_⟩
      rw [ih _ _ (by simp; omega)]
      simp only [List.sum_cons, List.flatten_cons]
      congr 2
      · omega
      · have h1 : (out.take k).length = k := by simp; omega
        rw [List.take_append_of_le_length (by simp [h1]), List.take_of_length_le (by simp [h1]), List.append_assoc]
  unfold concatLoop
  refine bind_ok.2 ⟨_, key parts 0 init (by omega), ?_⟩
  simp [pure, Except.pure]

/-- A CSR matrix as scipy keeps it: one row pointer more than rows, starting at 0 and ending at the number of stored
elements, which is the length of `data` and `indices`. -/
def CSR.WellFormed {α : Type} (w : CSR α) : Prop :=
  w.indptr.length = w.nrows + 1 ∧ w.indptr[0]? = some 0 ∧ w.indptr.getLast? = some w.data.length ∧
  w.indices.length = w.data.length

/-- **C09.** Encoding any non-empty list of non-empty well-formed W matrices with the same number of rows, and any list of u vectors,
succeeds; and opening W matrix number `k` (counted from 1) of a file carrying the encoded variables gives matrix `k`'s own values,
columns and row pointers, its width being one more than its largest column; opening u vector number `k` gives vector `k`. -/
theorem C09_w_u_roundtrip (ws : List (CSR α)) (us : List (List α)) (n : Nat) (hne : ws ≠ [])
    (hw : ∀ w ∈ ws, w.WellFormed ∧ w.nrows = n ∧ w.data ≠ []) :
    ∃ v, returnWMatrixVariables ws us = .ok v ∧ ∀ d : Dataset α,
      (∀ (k : Nat) (w : CSR α), ws[k]? = some w → ∃ c, c ∈ w.indices ∧ (∀ c' ∈ w.indices, c' ≤ c) ∧
        openW (d.withW v) (k + 1) = .ok { w with ncols := c + 1 }) ∧
      (∀ (k : Nat) (u : List α), us[k]? = some u → openU (d.withW v) (k + 1) = .ok u) := by
  obtain ⟨w0, ws', rfl⟩ := List.exists_cons_of_ne_nil hne
  set ws := w0 :: ws' with hws
  have hnnz : ws.mapM CSR.nnz = .ok ((ws.map (·.data)).map List.length) := by
    rw [List.map_map]
    apply mapM_ok_of
    intro w hwm
    obtain ⟨⟨_, _, h3, _⟩, _, _⟩ := hw w hwm
    rw [List.getLast?_eq_getElem?] at h3
    simp only [CSR.nnz, pyGet, h3, Function.comp]
  have hlenI : (ws.map (·.indices)).map List.length = (ws.map (·.data)).map List.length := by
    rw [List.map_map, List.map_map]
    apply List.map_congr_left
    intro w hwm
    exact (hw w hwm).1.2.2.2
  have hval := concatLoop_ok (ws.map (·.data)) (List.replicate ((ws.map (·.data)).map List.length).sum 0) (by simp)
  have hcol := concatLoop_ok (ws.map (·.indices)) (List.replicate ((ws.map (·.data)).map List.length).sum 0)
    (by rw [hlenI]; simp)
  rw [hlenI] at hcol
  have hw0 : w0.indptr.length = n + 1 := by
    obtain ⟨⟨h1, _⟩, h2, _⟩ := hw w0 (by simp [hws])
    rw [h1, h2]
  have hrow : (ws.mapM fun w => setSlice (List.replicate w0.indptr.length 0) 0 w0.indptr.length w.indptr) =
      .ok (ws.map (·.indptr)) := by
    apply mapM_ok_of
    intro w hwm
    obtain ⟨⟨h1, _⟩, h2, _⟩ := hw w hwm
    rw [setSlice_eq (by omega) (by simp) (by rw [h1, h2, hw0]; omega)]
    simp
  have hu := concatLoop_ok us (List.replicate (us.map List.length).sum 0) (by simp)
  refine ⟨⟨(ws.map (·.data)).flatten, ws.map (·.indptr), (ws.map (·.indices)).flatten, (ws.map (·.data)).map List.length,
    us.map List.length, us.flatten⟩, ?_, ?_⟩
  · unfold returnWMatrixVariables
    refine bind_ok.2 ⟨_, hnnz, bind_ok.2 ⟨_, hval, bind_ok.2 ⟨_, hcol, bind_ok.2 ⟨w0, rfl, bind_ok.2 ⟨_, hrow, ?_⟩⟩⟩⟩⟩
    exact bind_ok.2 ⟨_, hu, rfl⟩
  · intro d
    constructor
    · intro k w hk
      have hkl : k < ws.length := (List.getElem?_eq_some_iff.1 hk).1
      obtain ⟨⟨h1, h2, h3, h4⟩, _, h5⟩ := hw w (List.mem_of_getElem? hk)
      have hni : w.indices ≠ [] := by
        intro h; rw [h] at h4; exact h5 (List.eq_nil_of_length_eq_zero (by simpa using h4.symm))
      obtain ⟨c, hc⟩ : ∃ c, pyMax w.indices = .ok c := by
        cases hi : w.indices with
        | nil => exact absurd hi hni
        | cons x xs => exact ⟨_, rfl⟩
      obtain ⟨hc1, hc2⟩ := pyMax_ok hc
      refine ⟨c, hc2, hc1, ?_⟩
      unfold openW Dataset.withW
      simp only [Nat.add_sub_cancel]
      refine bind_ok.2 ⟨_, pyGet_prefixSums _ (by simp; omega), ?_⟩
      refine bind_ok.2 ⟨_, pyGet_prefixSums _ (by simp; omega), ?_⟩
      rw [slice_flatten (ws.map (·.data)) (show (ws.map (·.data))[k]? = some w.data by simp [hk])]
      rw [← hlenI, slice_flatten (ws.map (·.indices)) (show (ws.map (·.indices))[k]? = some w.indices by simp [hk])]
      refine bind_ok.2 ⟨w.indptr, by simp [pyGet, hk], bind_ok.2 ⟨c, hc, ?_⟩⟩
      unfold mkCSR
      rw [h2, h3]
      simp only
      rw [if_pos]
      · rw [List.take_of_length_le (by omega), List.take_of_length_le (by omega), h1, Nat.add_sub_cancel]
      · refine ⟨trivial, by omega, h4, by omega, ?_⟩
        rw [List.all_eq_true]
        intro x hx
        have := hc1 x hx
        simp; omega
    · intro k u hk
      have hkl : k < us.length := (List.getElem?_eq_some_iff.1 hk).1
      unfold openU Dataset.withW
      simp only [Nat.add_sub_cancel]
      refine bind_ok.2 ⟨_, pyGet_prefixSums _ (by simp; omega), ?_⟩
      refine bind_ok.2 ⟨_, pyGet_prefixSums _ (by simp; omega), ?_⟩
      rw [slice_flatten us hk]
      rfl

/-- Two 2-row matrices satisfying the hypotheses. -/
def Fixture.ws : List (CSR Int) := [⟨[1, 2, 3], [0, 1, 1], [0, 2, 3], 2, 5⟩, ⟨[4, 5], [0, 3], [0, 1, 2], 2, 4⟩]

example : (∀ w ∈ Fixture.ws, w.WellFormed ∧ w.nrows = 2 ∧ w.data ≠ []) ∧
    ∃ v, returnWMatrixVariables Fixture.ws [[7, 8], [9]] = .ok v ∧ v.val = [1, 2, 3, 4, 5] ∧ v.nnz = [3, 2] :=
  ⟨by unfold CSR.WellFormed; decide, _, rfl, by decide, by decide⟩

/-- Excluded point 1: a W matrix without stored elements cannot be opened (`max` of an empty list). -/
theorem C09_empty_matrix_fails (d : Dataset Int) :
    ∃ v, returnWMatrixVariables [(⟨[], [], [0, 0], 1, 1⟩ : CSR Int)] [] = .ok v ∧
      openW (d.withW v) 1 = .error .valueError := ⟨_, rfl, rfl⟩

/-- Excluded point 2: matrices with different numbers of rows cannot be encoded. -/
theorem C09_different_rows_fail :
    returnWMatrixVariables [(⟨[1], [0], [0, 0, 1], 2, 1⟩ : CSR Int), ⟨[1], [0], [0, 0, 0, 1], 3, 1⟩] [] = .error .valueError := by rfl

end Verif
