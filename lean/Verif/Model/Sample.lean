import Verif.Model.Reader
import Verif.Model.Summary
import Mathlib.Data.Rat.Floor
/-
Model of `core/matchup/matchupProcessing/sample2ind/Sample2Ind.py` and `cython_lib_sample2ind.pyx`.
-/
set_option autoImplicit false
namespace Verif
variable {α δ : Type}

/-- The stored columns of row `i` of a CSR matrix: `indices[indptr[i]:indptr[i+1]]` (cython_lib_sample2ind.pyx L34-35). -/
def CSR.rowCols (w : CSR α) (i : Nat) : List Nat := slice w.indices (w.indptr.getD i 0) (w.indptr.getD (i + 1) 0)

/-- The stored entries (column, weight) of row `i`. -/
def CSR.rowEntries (w : CSR α) (i : Nat) : List (Nat × α) :=
  (slice w.indices (w.indptr.getD i 0) (w.indptr.getD (i + 1) 0)).zip (slice w.data (w.indptr.getD i 0) (w.indptr.getD (i + 1) 0))

/-- pyx L40-46: the independence test of one matrix: every column of the row is so far unmarked (`sampled_cols[j][row_col]`,
`IndexError` outside the shape, which cannot happen for a matrix opened from a file). -/
def unmarked (marks : List Bool) (cols : List Nat) : Py Bool := do
  let prev ← cols.mapM (pyGet marks)
  pure (prev.all (· == false))

/-- pyx L51-52: `sampled_cols[j][row_cols] = True`. -/
def markCols (marks : List Bool) (cols : List Nat) : List Bool := cols.foldl (fun m c => m.set c true) marks

/-- pyx L28-53, one row: `st = (sampled_cols, idxs)`. `set(independence_test) == {1}` holds iff there is at least one matrix and every
test succeeds. -/
def greedyStep (ws : List (CSR α)) (st : List (List Bool) × List Nat) (i : Nat) : Py (List (List Bool) × List Nat) := do
  let tests ← (st.1.zip ws).mapM fun mw => unmarked mw.1 (mw.2.rowCols i)
  if tests ≠ [] ∧ tests.all (· == true) then
    pure ((st.1.zip ws).map fun mw => markCols mw.1 (mw.2.rowCols i), st.2 ++ [i])
  else pure st

/-- Number of iterations of the row loop (pyx L28-29): `zip` stops at the shortest row-pointer list. -/
def rowCount (ws : List (CSR α)) : Nat :=
  match ws.map (fun w => w.indptr.length - 1) with
  | [] => 0
  | n :: ns => ns.foldl min n

/-- pyx L11-53: the selected rows before any random reduction. -/
def greedyRows (ws : List (CSR α)) : Py (List Nat) := do
  let st ← (List.range (rowCount ws)).foldlM (greedyStep ws) (ws.map fun w => List.replicate w.ncols false, [])
  pure st.2

/-- `random.sample(population, k)`: `rnd` stands for the random choice; `ValueError` when `k` exceeds the population. -/
def pySample (rnd : List Nat → Nat → List Nat) (population : List Nat) (k : Nat) : Py (List Nat) :=
  if k ≤ population.length then .ok (rnd population k) else .error .valueError

/-- `sorted(l)` for numbers. -/
def pySorted (l : List Nat) : List Nat := l.mergeSort (fun a b => decide (a ≤ b))

/-- pyx L55-58: the random reduction inside `get_sample_idxs` (not sorted). -/
def getSampleIdxs (rnd : List Nat → Nat → List Nat) (ws : List (CSR α)) (mu_samples : Nat) : Py (List Nat) := do
  let idxs ← greedyRows ws
  if mu_samples < idxs.length then pySample rnd idxs mu_samples else pure idxs

/-- Enumeration of `set(idx['n_mu'])` (Sample2Ind.py L83): CPython enumerates a set of the integers 1..N in increasing order. -/
def seriesSet (n_mu : List Nat) : List Nat := (List.range (n_mu.foldl max 0 + 1)).filter (· ∈ n_mu)

/-- L69-70: the sampling factor, reduced when the requested number exceeds the maximum (`n_sample_max / total` in exact arithmetic). -/
def samplingFactor (total : Nat) (sf : ℚ) (n_sample_max : Nat) : ℚ :=
  if (n_sample_max : ℚ) < total * sf then n_sample_max / total else sf

/-- `MatchUpData.unc[b].w_i` for a block of type 3 or 4. -/
def Unc.wIndex? : Unc α → Option Nat
  | .structured w _ => some w
  | .structuredSystematic w _ _ => some w
  | _ => none

/-- L94-98: the W matrices of the blocks of series `n_mu` (in block order). A matrix slot never filled is not a matrix. -/
def seriesWs (mu : MatchUp α δ) (n_mu : Nat) : Py (List (CSR α)) :=
  ((mu.idx.n_mu.zip mu.unc).filterMap fun nu => if nu.1 = n_mu then nu.2.unc.wIndex? else none).mapM fun w => do
    let o ← pyGet mu.w_matrices w
    match o with
    | some m => pure m
    | none => .error .attributeError

/-- L86-115: the sampled positions of one series. -/
def seriesSample (rnd : List Nat → Nat → List Nat) (mu : MatchUp α δ) (sf : ℚ) (n_mu : Nat) : Py (List Nat) := do
  let b ← pyIndex mu.idx.n_mu n_mu
  let mu_total ← pyGet mu.idx.N_var b
  let mu_samples := (⌊(mu_total : ℚ) * sf⌋).toNat
  let ws ← seriesWs mu n_mu
  if ws ≠ [] then do
    let idxs ← getSampleIdxs rnd ws mu_samples
    if mu_samples < idxs.length then do
      let s ← pySample rnd idxs mu_samples
      pure (pySorted s)
    else pure idxs
  else do
    let s ← pySample rnd (List.range mu_total) mu_samples
    pure (pySorted s)

/-- `sampling_idxs`: the dictionary from series number to positions. -/
def samplingIdxs (rnd : List Nat → Nat → List Nat) (mu : MatchUp α δ) (sf : ℚ) : Py (List (Nat × List Nat)) :=
  (seriesSet mu.idx.n_mu).mapM fun n => do
    let s ← seriesSample rnd mu sf n
    pure (n, s)

/-- `sampling_idxs[n]`. -/
def lookupSample (s : List (Nat × List Nat)) (n : Nat) : Py (List Nat) :=
  match s.find? (fun e => e.1 == n) with
  | some e => .ok e.2
  | none => .error .keyError

/-- numpy `l[idxs]` with a list of non-negative integers. -/
def takeAt {β : Type} (l : List β) (idxs : List Nat) : Py (List β) := idxs.mapM (pyGet l)

/-- The sampled object (attributes set by L120-267). -/
structure SampledMatchUp (α δ : Type) where
  idx : Idx
  values : List α
  unc : List (List α)
  ks : List α
  unck : List (List α)
  time1 : List δ
  time2 : List δ
  across_track_index1 : Option (List α)
  across_track_index2 : Option (List α)
  along_track_index1 : Option (List α)
  along_track_index2 : Option (List α)

/-- L182-190: the random uncertainty of one sampled match-up of an averaged block; `rms us n` is
`npsum(us**2)**0.5 / n**0.5`. -/
def sampledU (rms : List α → Nat → α) (w : CSR α) (u : List α) (s_i : Nat) : Py α := do
  let p ← pyGet w.indptr s_i
  let q ← pyGet w.indptr (s_i + 1)
  let col_start ← pyGet w.indices p
  let c ← pyGetInt w.indices ((q : Int) - 1)
  pure (rms (slice u col_start (c + 1)) (c + 1 - col_start))

/-- L175-194: uncertainties of one sampled block (always type 1). -/
def sampledUnc (rms : List α → Nat → α) (mu : MatchUp α δ) (u : Unc α) (s_idx : List Nat) : Py (List α) :=
  match u with
  | .independent uR => takeAt uR s_idx
  | .systematic uR _ => takeAt uR s_idx
  | .structured w_i u_i | .structuredSystematic w_i u_i _ => do
    let w ← pyGet mu.w_matrices w_i
    let uu ← pyGet mu.u_matrices u_i
    match w, uu with
    | some w, some uu => s_idx.mapM (sampledU rms w uu)
    | _, _ => .error .attributeError

/-- L166-173 for all blocks: `values_s[istart_s:iend_s] = values[istart:iend][s_idx]`. -/
def sampleBlocks {β : Type} (bounds bounds_s : List Nat) (samples : List (List Nat)) (values : List β) (init : List β) :
    Py (List β) :=
  samples.zipIdx.foldlM (fun out si => do
    let a ← pyGet bounds si.2
    let b ← pyGet bounds (si.2 + 1)
    let a' ← pyGet bounds_s si.2
    let b' ← pyGet bounds_s (si.2 + 1)
    let v ← takeAt (slice values a b) si.1
    setSlice out a' b' v) init

/-- L45-277 `Sample2Ind.run`. `sampling_idxs[i+1]` in L232 is the sample of the `i`-th K uncertainty; the first K loop (L200-217) computes the
same K data and is overwritten. -/
def sample2ind [Zero α] (rnd : List Nat → Nat → List Nat) (rms : List α → Nat → α) (dateZero : δ)
    (mu : MatchUp α δ) (sf0 : ℚ) (n_sample_max : Nat) : Py (SampledMatchUp α δ) := do
  let total ← pyGet mu.idx.cNm (mu.idx.cNm.length - 1)
  let sf := samplingFactor total sf0 n_sample_max
  let s ← samplingIdxs rnd mu sf
  let blockSamples ← mu.idx.n_mu.mapM (lookupSample s)
  let seriesSamples ← (List.range mu.unck.length).mapM fun i => lookupSample s (i + 1)
  let N_var := blockSamples.map List.length
  let Nm := s.map fun e => e.2.length
  let x := { mu.idx with N_var := N_var, idx := prefixSums N_var, Nm := Nm, cNm := prefixSums Nm }
  let values ← sampleBlocks mu.idx.idx x.idx blockSamples mu.values (List.replicate N_var.sum 0)
  let unc ← (mu.unc.zip blockSamples).mapM fun us => sampledUnc rms mu us.1.unc us.2
  let ks ← sampleBlocks mu.idx.cNm x.cNm seriesSamples mu.ks (List.replicate Nm.sum 0)
  let unck ← (mu.unck.zip seriesSamples).mapM fun us => takeAt us.1 us.2
  let opt := fun (o : Option (List α)) => (match o with
    | some l => do
      let r ← sampleBlocks mu.idx.cNm x.cNm seriesSamples l (List.replicate Nm.sum 0)
      pure (some r)
    | none => pure none : Py (Option (List α)))
  let a1 ← opt mu.across_track_index1
  let a2 ← opt mu.across_track_index2
  let l1 ← opt mu.along_track_index1
  let l2 ← opt mu.along_track_index2
  let time := fun (o : Option (List δ)) => (match o with
    | some l => sampleBlocks mu.idx.cNm x.cNm seriesSamples l (List.replicate Nm.sum dateZero)
    | none => .error .typeError : Py (List δ))
  let t1 ← time mu.time1
  let t2 ← time mu.time2
  pure { idx := x, values := values, unc := unc, ks := ks, unck := unck, time1 := t1, time2 := t2
         across_track_index1 := a1, across_track_index2 := a2, along_track_index1 := l1, along_track_index2 := l2 }

end Verif
