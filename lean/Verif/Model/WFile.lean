import Verif.Model.Reader
/-
Model of `tools/W_matrix_functions.py` `return_w_matrix_variables` (L195-277): the encoder of the W/u matrix variables of a
match-up file, whose decoder is `openW` / `openU` (MatchUpReader.py L394-442).
-/
set_option autoImplicit false
namespace Verif

/-- The encoded variables `w_matrix_val`, `w_matrix_row`, `w_matrix_col`, `w_matrix_nnz`, `u_matrix_row_count`, `u_matrix_val`
(W_matrix_functions.py L277). -/
structure WVars (α : Type _) where
  val : List α
  row : List (List Nat)
  col : List Nat
  nnz : List Nat
  uCount : List Nat
  uVal : List α

/-- The concatenation loops L240-246 and L268-275: `iend += n; out[istart:iend] = part; istart = iend`. The state is
`(istart, out)`. -/
def concatLoop {α : Type _} (parts : List (List α × Nat)) (init : List α) : Py (List α) := do
  let st ← parts.foldlM (fun (st : Nat × List α) p => do
    let out ← setSlice st.2 st.1 (st.1 + p.2) p.1
    pure (st.1 + p.2, out)) (0, init)
  pure st.2

/-- scipy `w.nnz` for a CSR matrix is `indptr[-1]`. -/
def CSR.nnz {α : Type _} (w : CSR α) : Py Nat := pyGet w.indptr (w.indptr.length - 1)

/-- L224-277 `return_w_matrix_variables`.  `w_matrices[0]` (L249) raises `IndexError` for an empty list; the row assignment of L251
needs equal row-pointer lengths. -/
def returnWMatrixVariables {α : Type _} [Zero α] (ws : List (CSR α)) (us : List (List α)) : Py (WVars α) := do
  let nnz ← ws.mapM CSR.nnz
  let val ← concatLoop ((ws.map (·.data)).zip nnz) (List.replicate nnz.sum 0)
  let col ← concatLoop ((ws.map (·.indices)).zip nnz) (List.replicate nnz.sum 0)
  let w0 ← pyGet ws 0
  let row ← ws.mapM fun w => setSlice (List.replicate w0.indptr.length 0) 0 w0.indptr.length w.indptr
  let counts := us.map List.length
  let uVal ← concatLoop (us.zip counts) (List.replicate counts.sum 0)
  pure { val := val, row := row, col := col, nnz := nnz, uCount := counts, uVal := uVal }

/-- Storing the encoded variables in a match-up file (`append_W_to_input_file`, L280-400: one variable each). -/
def Dataset.withW {α : Type _} (d : Dataset α) (v : WVars α) : Dataset α :=
  { d with wNnz := v.nnz, wVal := v.val, wCol := v.col, wRow := v.row, uCount := v.uCount, uVal := v.uVal }

end Verif
