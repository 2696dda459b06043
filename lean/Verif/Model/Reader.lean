import Verif.Model.Py
/-
Model of `harmonisation_eiv/harmonisation/core/matchup/matchupIO/MatchUpReader.py` (class `MatchUpReader`),
`MatchUp.py` (getters) and `Uncertainty.py`.

`α` is the type of the numeric data (float32 in the code; the reader only moves values, so it is arbitrary).
-/
set_option autoImplicit false
namespace Verif

/-- One side (sensor 1 or sensor 2) of a match-up file: attribute `sensor_j_name`, dimension `mj`, variables
`Xj`, `Urj`, `Usj` (dimensions `("M","mj")`), `uncertainty_typej`, `w_matrix_usej`, `u_matrix_usej` (dimension `("mj",)`).
Variables are given by their element functions, so their shapes are the netCDF dimensions by construction
(input file specification, MatchUpReader.py L229-240, L287-392). -/
structure Side (α : Type _) where
  name : String
  m : Nat
  X : Nat → Nat → α
  Ur : Nat → Nat → α
  Us : Nat → Nat → α
  utype : Nat → Nat
  wUse : Nat → Nat
  uUse : Nat → Nat

/-- Any other netCDF variable of the file: its dimension names and its flattened data. -/
structure NcVar (α : Type _) where
  dims : List String
  data : List α

/-- An open match-up file (`netCDF4.Dataset`): dimension `M`, the two sides, the per-match-up variables `K`, `Kr`, `Ks`,
`time1`, `time2`, whether all four `w/u_matrix_use` variables are present, the remaining variables by name, and the
W/u matrix variables (MatchUpReader.py L394-459). -/
structure Dataset (α : Type _) where
  M : Nat
  s1 : Side α
  s2 : Side α
  K : Nat → α
  Kr : Nat → α
  Ks : Nat → α
  time1 : Nat → α
  time2 : Nat → α
  hasUse : Bool
  vars : List (String × NcVar α)
  wNnz : List Nat
  wVal : List α
  wCol : List Nat
  wRow : List (List Nat)
  uCount : List Nat
  uVal : List α

/-- The two sides in loop order (`enumerate(idx["Im"][i])`, `zip([sensor_1_name, sensor_2_name], ...)`). -/
def Dataset.sides {α : Type _} (d : Dataset α) : List (Side α) := [d.s1, d.s2]

/-- `matchup.idx`, the dictionary describing the 1D data structure (MatchUpReader.py L203-212); the last three
entries are only present after additional values / sensor data are read (L533, L607-608). -/
structure Idx where
  Nm : List Nat
  cNm : List Nat
  Im : List (Nat × Nat)
  sensors : List String
  sensor_ms : List Nat
  n_sensor : List Nat
  n_mu : List Nat
  n_cov : List Nat
  N_var : List Nat
  idx : List Nat
  additional_values_name : Option (List String) := none
  parameter_sensor : Option (List String) := none
  constant_sensor : Option (List String) := none
  deriving DecidableEq, Repr

/-- L218-219 `get_idx_Nm_from_nc_datasets`. -/
def getNm {α : Type _} (ds : List (Dataset α)) : List Nat := ds.map (·.M)

/-- L221-227 `get_idx_cNm_from_nc_datasets`. -/
def getCNm {α : Type _} (ds : List (Dataset α)) : List Nat := prefixSums (ds.map (·.M))

/-- Loop body of L229-240: append an unseen sensor and its covariate count. -/
def sensorStep {α : Type _} (st : List String × List Nat) (s : Side α) : List String × List Nat :=
  if s.name ∈ st.1 then st else (st.1 ++ [s.name], st.2 ++ [s.m])

/-- L229-240 `get_idx_sensors_from_nc_datasets` (both loops flattened in loop order). -/
def getSensors {α : Type _} (ds : List (Dataset α)) : List String × List Nat :=
  (ds.flatMap Dataset.sides).foldl sensorStep ([], [])

/-- L242-246 `get_idx_Im_from_nc_datasets`. -/
def getIm {α : Type _} (ds : List (Dataset α)) (sensors : List String) : Py (List (Nat × Nat)) :=
  ds.mapM fun d => do
    let a ← pyIndex sensors d.s1.name
    let b ← pyIndex sensors d.s2.name
    pure (a, b)

/-- `[s for s in pair]` -/
def pairList (p : Nat × Nat) : List Nat := [p.1, p.2]

/-- The filter `sensor_ms[s] >= m_i` of L250, L257, L263 (`s` is a position in `sensors`, so always in range). -/
def hasCov (sensor_ms : List Nat) (m_i s : Nat) : Bool := decide (m_i ≤ sensor_ms.getD s 0)

/-- L248-252 `get_idx_n_sensor_from_nc_datasets`. `mx = max(sensor_ms)`; `range(1, mx+1)` is `m_i = k+1, k < mx`. -/
def getNSensor (Im : List (Nat × Nat)) (sensor_ms : List Nat) (mx : Nat) : List Nat :=
  (List.range mx).flatMap fun k => (Im.flatMap pairList).filter (hasCov sensor_ms (k + 1))

/-- L254-258 `get_idx_n_mu_from_nc_datasets`. -/
def getNMu (Im : List (Nat × Nat)) (sensor_ms : List Nat) (mx : Nat) : List Nat :=
  (List.range mx).flatMap fun k => Im.zipIdx.flatMap fun pi =>
    ((pairList pi.1).filter (hasCov sensor_ms (k + 1))).map fun _ => pi.2 + 1

/-- L260-264 `get_idx_n_cov_from_nc_datasets`. -/
def getNCov (Im : List (Nat × Nat)) (sensor_ms : List Nat) (mx : Nat) : List Nat :=
  (List.range mx).flatMap fun k => ((Im.flatMap pairList).filter (hasCov sensor_ms (k + 1))).map fun _ => k + 1

/-- L266-267 `get_idx_N_var_from_nc_datasets` (`Nm[n - 1]`). -/
def getNVar (Nm n_mu : List Nat) : Py (List Nat) := n_mu.mapM fun n => pyGet Nm (n - 1)

/-- L191-213 `get_idx_from_nc_datasets`. -/
def getIdx {α : Type _} (ds : List (Dataset α)) : Py Idx := do
  let Nm := getNm ds
  let cNm := getCNm ds
  let (sensors, sensor_ms) := getSensors ds
  let Im ← getIm ds sensors
  let mx ← pyMax sensor_ms
  let n_sensor := getNSensor Im sensor_ms mx
  let n_mu := getNMu Im sensor_ms mx
  let n_cov := getNCov Im sensor_ms mx
  let N_var ← getNVar Nm n_mu
  pure { Nm := Nm, cNm := cNm, Im := Im, sensors := sensors, sensor_ms := sensor_ms,
         n_sensor := n_sensor, n_mu := n_mu, n_cov := n_cov, N_var := N_var, idx := prefixSums N_var }

/-- L215-216 `get_block_idxs`: `zip(n_sensor, n_mu, n_cov)`. -/
def Idx.blocks (x : Idx) : List (Nat × Nat × Nat) := x.n_sensor.zip (x.n_mu.zip x.n_cov)

/-- One slice assignment `values[idx[b]:idx[b+1]] = data` with `b = keys.index(key)` (L301-308). -/
def writeBlock {κ α : Type _} [DecidableEq κ] (keys : List κ) (bounds : List Nat) (values : List α)
    (job : κ × Py (List α)) : Py (List α) := do
  let b ← pyIndex keys job.1
  let i_start ← pyGet bounds b
  let i_end ← pyGet bounds (b + 1)
  let d ← job.2
  setSlice values i_start i_end d

/-- `variables['Xj'][:, i_cov]`: `IndexError` when the variable has fewer columns. -/
def Side.colX {α : Type _} (M : Nat) (s : Side α) (c : Nat) : Py (List α) :=
  if c < s.m then .ok (column M s.X c) else .error .indexError

/-- The loop nest of L295-308: for every dataset `i`, every side (with its sensor number), every covariate number below the
sensor's covariate count, the block key and the data to be written. -/
def valueJobs {α : Type _} (ds : List (Dataset α)) (x : Idx) : List ((Nat × Nat × Nat) × Py (List α)) :=
  (ds.zip x.Im).zipIdx.flatMap fun di =>
    (di.1.1.sides.zip (pairList di.1.2)).flatMap fun ss =>
      (List.range (x.sensor_ms.getD ss.2 0)).map fun c => ((ss.2, di.2 + 1, c + 1), ss.1.colX di.1.1.M c)

/-- L287-310 `open_values_from_nc_datasets`. -/
def openValues {α : Type _} [Zero α] (ds : List (Dataset α)) (x : Idx) : Py (List α) := do
  let n ← pyGet x.idx (x.idx.length - 1)
  (valueJobs ds x).foldlM (writeBlock x.blocks x.idx) (List.replicate n 0)

/-- The per-series slice assignment loop shared by `open_ks` (L461-471), `open_time` (L476-488), `open_optional_index` (L516-527)
and each column of `open_additional_values` (L536-551): `out[cNm[i]:cNm[i+1]] = data_i`. -/
def openSeries {α : Type _} (init : List α) (cNm : List Nat) (data : List (List α)) : Py (List α) :=
  data.zipIdx.foldlM (fun out di => do
    let a ← pyGet cNm di.2
    let b ← pyGet cNm (di.2 + 1)
    setSlice out a b di.1) init

/-- L461-471 `open_ks_from_nc_datasets`. -/
def openKs {α : Type _} [Zero α] (ds : List (Dataset α)) (x : Idx) : Py (List α) := do
  let n ← pyGet x.cNm (x.cNm.length - 1)
  openSeries (List.replicate n 0) x.cNm (ds.map fun d => vector d.M d.K)

/-- L473-474 `open_unck_from_nc_datasets`: one uncertainty vector per series; `rss` is `(a**2 + b**2)**0.5`. -/
def openUncK {α : Type _} (rss : α → α → α) (ds : List (Dataset α)) : List (List α) :=
  ds.map fun d => vector d.M (fun i => rss (d.Kr i) (d.Ks i))

/-- L476-507 `open_time_from_nc_datasets` for one of the two time variables; `toDate` is
`datetime.fromtimestamp(int(t))`. -/
def openTime {α δ : Type _} (zero : δ) (toDate : α → δ) (sel : Dataset α → Nat → α) (ds : List (Dataset α)) (x : Idx) :
    Py (List δ) := do
  let n ← pyGet x.cNm (x.cNm.length - 1)
  openSeries (List.replicate n zero) x.cNm (ds.map fun d => (vector d.M (sel d)).map toDate)

/-- `dataset.variables[name]` (`None` when the key is absent). -/
def Dataset.var? {α : Type _} (d : Dataset α) (name : String) : Option (NcVar α) :=
  (d.vars.find? (fun v => v.1 == name)).map (·.2)

/-- L509-529 `open_optional_index_from_nc_datasets`; `toInt` is `.astype(int32)` read back into the float array. -/
def openOptionalIndex {α : Type _} [Zero α] (nan : α) (toInt : α → α) (name : String) (ds : List (Dataset α)) (x : Idx) :
    Py (Option (List α)) :=
  if ds.any (fun d => (d.var? name).isSome) then do
    let n ← pyGet x.cNm (x.cNm.length - 1)
    let out ← openSeries (List.replicate n 0) x.cNm (ds.map fun d =>
      match d.var? name with
      | some v => v.data.map toInt
      | none => List.replicate d.M nan)
    pure (some out)
  else .ok none

/-- L33-34 `STANDARD_VARIABLE_NAMES`. -/
def standardVariableNames : List String :=
  ["time1", "time2", "K", "Kr", "Ks", "across_track_index1", "across_track_index2",
   "along_track_index1", "along_track_index2"]

/-- The variables of one dataset collected by L279-282: dimensions `("M",)` and not standard. -/
def Dataset.additionalNames {α : Type _} (d : Dataset α) : List String :=
  (d.vars.filter fun v => decide (v.2.dims = ["M"]) && !(standardVariableNames.contains v.1)).map (·.1)

/-- L277-285 `get_idx_additional_values_name_from_nc_datasets`: the union, as a set; `enum` is the (unspecified) order in
which Python enumerates a set. -/
def additionalNames {α : Type _} (enum : List String → List String) (ds : List (Dataset α)) : List String :=
  enum (ds.flatMap Dataset.additionalNames)

/-- One column of L531-553 `open_additional_values_from_nc_datasets`: data with `fill` replaced by `nan`; `nan` when absent. -/
def openAdditionalColumn {α : Type _} [Zero α] [DecidableEq α] (nan fill : α) (ds : List (Dataset α)) (x : Idx)
    (name : String) : Py (List α) := do
  let n ← pyGet x.cNm (x.cNm.length - 1)
  openSeries (List.replicate n 0) x.cNm (ds.map fun d =>
    match d.var? name with
    | some v => v.data.map fun y => if y = fill then nan else y
    | none => List.replicate d.M nan)

/-- L531-553 `open_additional_values_from_nc_datasets`: the columns of the 2D array, in the order of the names. -/
def openAdditional {α : Type _} [Zero α] [DecidableEq α] (nan fill : α) (names : List String) (ds : List (Dataset α))
    (x : Idx) : Py (List (List α)) :=
  names.mapM (openAdditionalColumn nan fill ds x)

/-! ### Uncertainties -/

/-- `Uncertainty.py` L102-124: the four uncertainty types and their data. -/
inductive Unc (α : Type _) where
  | independent (uR : List α)
  | systematic (uR uS : List α)
  | structured (w_i u_i : Nat)
  | structuredSystematic (w_i u_i : Nat) (uS : α)
  deriving DecidableEq, Repr

/-- `Uncertainty.typeID`. -/
def Unc.typeID {α : Type _} : Unc α → Nat
  | .independent _ => 1
  | .systematic _ _ => 2
  | .structured _ _ => 3
  | .structuredSystematic _ _ _ => 4

/-- An uncertainty object with the attribute `uS_i` set by MatchUpReader.py L383-390. -/
structure UncBlock (α : Type _) where
  unc : Unc α
  uS_i : Option Nat
  deriving DecidableEq, Repr

/-- `scipy.sparse.csr_matrix((data, indices, indptr), shape)`. -/
structure CSR (α : Type _) where
  data : List α
  indices : List Nat
  indptr : List Nat
  nrows : Nat
  ncols : Nat
  deriving DecidableEq, Repr

/-- scipy's constructor checks (`check_format`): row pointers start at 0 and do not exceed the number of stored
elements, columns are within the shape, `data` and `indices` have equal lengths; surplus elements are pruned. -/
def mkCSR {α : Type _} (data : List α) (indices indptr : List Nat) (nrows ncols : Nat) : Py (CSR α) :=
  match indptr[0]?, indptr.getLast? with
  | some first, some last =>
    if first = 0 ∧ last ≤ indices.length ∧ indices.length = data.length ∧ indptr.length = nrows + 1
        ∧ indices.all (· < ncols) then
      .ok { data := data.take last, indices := indices.take last, indptr := indptr, nrows := nrows, ncols := ncols }
    else .error .valueError
  | _, _ => .error .valueError

/-- L394-421 `_open_w_matrix` for `w_i >= 1`. -/
def openW {α : Type _} (d : Dataset α) (w_i : Nat) : Py (CSR α) := do
  let a ← pyGet (prefixSums d.wNnz) (w_i - 1)
  let b ← pyGet (prefixSums d.wNnz) w_i
  let data := slice d.wVal a b
  let indices := slice d.wCol a b
  let indptr ← pyGet d.wRow (w_i - 1)
  let mx ← pyMax indices
  mkCSR data indices indptr (indptr.length - 1) (mx + 1)

/-- L423-442 `_open_u_matrix` for `u_i >= 1`. -/
def openU {α : Type _} (d : Dataset α) (u_i : Nat) : Py (List α) := do
  let a ← pyGet (prefixSums d.uCount) (u_i - 1)
  let b ← pyGet (prefixSums d.uCount) u_i
  pure (slice d.uVal a b)

/-- The use numbers of a dataset: `append(use1, use2)` without zeros (L450-451, L454-455). -/
def Dataset.uses {α : Type _} (sel : Side α → Nat → Nat) (d : Dataset α) : List Nat :=
  if d.hasUse then ((List.range d.s1.m).map (sel d.s1) ++ (List.range d.s2.m).map (sel d.s2)).filter (· ≠ 0) else []

/-- L444-459 `open_matrix_idxs_from_nc_datasets` for W (`sel = wUse`) or u (`sel = uUse`); `enum` is the order in which
Python enumerates a set of numbers. -/
def matrixIdxs {α : Type _} (enum : List Nat → List Nat) (sel : Side α → Nat → Nat) (ds : List (Dataset α)) :
    List (Nat × Nat) :=
  ds.zipIdx.flatMap fun di => (enum (di.1.uses sel)).map fun w => (di.2 + 1, w)

/-- State of the loop of L329-380: the block uncertainties (`none` is the initial 0) and the matrix stores. -/
structure UncState (α : Type _) where
  unc : List (Option (Unc α))
  ws : List (Option (CSR α))
  us : List (Option (List α))

/-- The loop body L345-380 for dataset `d` (number `i`), side `s` with sensor number `n`, column `c`.
`Us[1, c]` (L379-380) is the element of row **1**: `IndexError` when the file has a single match-up. -/
def uncStep {α : Type _} (widx uidx : List (Nat × Nat)) (keys : List (Nat × Nat × Nat)) (st : UncState α)
    (job : Dataset α × Nat × Side α × Nat × Nat) : Py (UncState α) := do
  let (d, i, s, n, c) := job
  let w_j := if d.hasUse then s.wUse c else 0
  let u_j := if d.hasUse then s.uUse c else 0
  let b ← pyIndex keys (n, i + 1, c + 1)
  if s.utype c = 1 then
    pure { st with unc := st.unc.set b (some (.independent (column d.M s.Ur c))) }
  else if s.utype c = 2 then
    pure { st with unc := st.unc.set b (some (.systematic (column d.M s.Ur c) (column d.M s.Us c))) }
  else if s.utype c = 3 then do
    let wi ← pyIndex widx (i + 1, w_j)
    let ui ← pyIndex uidx (i + 1, u_j)
    let w ← openW d w_j
    let u ← openU d u_j
    pure { unc := st.unc.set b (some (.structured wi ui)), ws := st.ws.set wi (some w), us := st.us.set ui (some u) }
  else if s.utype c = 4 then do
    let wi ← pyIndex widx (i + 1, w_j)
    let ui ← pyIndex uidx (i + 1, u_j)
    let w ← openW d w_j
    let u ← openU d u_j
    if 1 < d.M then
      pure { unc := st.unc.set b (some (.structuredSystematic wi ui (s.Us 1 c)))
             ws := st.ws.set wi (some w), us := st.us.set ui (some u) }
    else .error .indexError
  else pure st

/-- The loop nest of L324-345: every dataset, side and column (`uncertainty_typej` has one entry per column). -/
def uncJobs {α : Type _} (ds : List (Dataset α)) (x : Idx) : List (Dataset α × Nat × Side α × Nat × Nat) :=
  (ds.zip x.Im).zipIdx.flatMap fun di =>
    (di.1.1.sides.zip (pairList di.1.2)).flatMap fun ss =>
      (List.range ss.1.m).map fun c => (di.1.1, di.2, ss.1, ss.2, c)

/-- L383-390: numbering of the systematic effects; the state is `sys_indices` and the uncertainties numbered so far.
An entry still 0 (`none`) has no `typeID`: `AttributeError`. -/
def sysStep {α : Type _} (st : List (Nat × Nat) × List (UncBlock α)) (e : (Nat × Nat) × Option (Unc α)) :
    Py (List (Nat × Nat) × List (UncBlock α)) :=
  match e.2 with
  | none => .error .attributeError
  | some u =>
    if u.typeID = 2 ∨ u.typeID = 4 then
      if e.1 ∈ st.1 then .ok (st.1, st.2 ++ [⟨u, some (st.1.idxOf e.1 + 1)⟩])
      else .ok (st.1 ++ [e.1], st.2 ++ [⟨u, some (st.1.length + 1)⟩])
    else .ok (st.1, st.2 ++ [⟨u, none⟩])

/-- L382-390 over all blocks. -/
def numberSystematic {α : Type _} (keys : List (Nat × Nat)) (unc : List (Option (Unc α))) : Py (List (UncBlock α)) := do
  let st ← (keys.zip unc).foldlM sysStep ([], [])
  pure st.2

/-- L312-392 `open_unc_from_nc_datasets`. -/
def openUnc {α : Type _} (enum : List Nat → List Nat) (ds : List (Dataset α)) (x : Idx) :
    Py (List (UncBlock α) × List (Option (CSR α)) × List (Option (List α))) := do
  let widx := matrixIdxs enum Side.wUse ds
  let uidx := matrixIdxs enum Side.uUse ds
  let st ← (uncJobs ds x).foldlM (uncStep widx uidx x.blocks)
    { unc := List.replicate x.N_var.length none
      ws := List.replicate widx.length none
      us := List.replicate uidx.length none }
  let unc ← numberSystematic (x.n_sensor.zip x.n_cov) st.unc
  pure (unc, st.ws, st.us)

/-! ### The match-up object -/

/-- The data attributes of `MatchUp` (MatchUp.py L130-160) used by the getters. -/
structure MatchUp (α δ : Type _) where
  idx : Idx
  original_idx : Idx
  values : List α
  ks : List α
  unck : List (List α)
  unc : List (UncBlock α)
  w_matrices : List (Option (CSR α))
  u_matrices : List (Option (List α))
  time1 : Option (List δ)
  time2 : Option (List δ)
  across_track_index1 : Option (List α)
  across_track_index2 : Option (List α)
  along_track_index1 : Option (List α)
  along_track_index2 : Option (List α)
  additional_values : Option (List (List α))
  deriving Repr

/-- The conversions and conventions of the runtime used by the reader. -/
structure ReadEnv (α δ : Type _) where
  nan : α
  fill : α
  toInt : α → α
  rss : α → α → α
  dateZero : δ
  toDate : α → δ
  enumStr : List String → List String
  enumNat : List Nat → List Nat

/-- L66-153 `openMatchUp` on opened datasets, without sensor data, with uncertainties and additional values.
The `_original_idx` copy (L151) is taken after everything is read. -/
def openMatchUp {α δ : Type _} [Zero α] [DecidableEq α] (env : ReadEnv α δ) (ds : List (Dataset α)) :
    Py (MatchUp α δ) := do
  let x ← getIdx ds
  let values ← openValues ds x
  let ks ← openKs ds x
  let time1 ← openTime env.dateZero env.toDate Dataset.time1 ds x
  let time2 ← openTime env.dateZero env.toDate Dataset.time2 ds x
  let ac1 ← openOptionalIndex env.nan env.toInt "across_track_index1" ds x
  let ac2 ← openOptionalIndex env.nan env.toInt "across_track_index2" ds x
  let al1 ← openOptionalIndex env.nan env.toInt "along_track_index1" ds x
  let al2 ← openOptionalIndex env.nan env.toInt "along_track_index2" ds x
  let (unc, ws, us) ← openUnc env.enumNat ds x
  let unck := openUncK env.rss ds
  let names := additionalNames env.enumStr ds
  let add ← openAdditional env.nan env.fill names ds x
  let x' := { x with additional_values_name := some names }
  pure { idx := x', original_idx := x', values := values, ks := ks, unck := unck, unc := unc
         w_matrices := ws, u_matrices := us
         time1 := some time1, time2 := some time2
         across_track_index1 := ac1, across_track_index2 := ac2
         along_track_index1 := al1, along_track_index2 := al2
         additional_values := some add }

/-- The keys compared by `getVariableData` (MatchUp.py L180-182): sensor *name*, series, covariate;
`sensors[s]` raises `IndexError` out of range. -/
def Idx.nameBlocks (x : Idx) : Py (List (String × Nat × Nat)) := do
  let names ← x.n_sensor.mapM (pyGet x.sensors)
  pure (names.zip (x.n_mu.zip x.n_cov))

/-- The `matchup_number` argument: `None`, a number, or a list of numbers (MatchUp.py L172-178). -/
inductive MuArg where
  | none
  | num (n : Nat)
  | list (l : List Nat)
  deriving DecidableEq, Repr

/-- MatchUp.py L169-185 `getVariableData`.  The tuple searched for (L183) contains the argument itself, so `None` or a list
is never found: `ValueError`. (The list `matchup_numbers` computed in L171-178 is never used.) -/
def MatchUp.getVariableData {α δ : Type _} (mu : MatchUp α δ) (variable_number : Nat) (sensor_name : String)
    (matchup_number : MuArg) : Py (List α) := do
  let keys ← mu.idx.nameBlocks
  match matchup_number with
  | .num n =>
    let b ← pyIndex keys (sensor_name, n, variable_number)
    let i_start ← pyGet mu.idx.idx b
    let i_end ← pyGet mu.idx.idx (b + 1)
    pure (slice mu.values i_start i_end)
  | _ => .error .valueError

/-- Python's `max` of a list of values: `ValueError` when empty. -/
def pyMaxOf {α : Type _} [Max α] (l : List α) : Py α :=
  match l with
  | [] => .error .valueError
  | x :: xs => .ok (xs.foldl max x)

/-- MatchUp.py L187-192 `getVariableDataMax` (the minimum, L194-199, is the same with `min`): a `ValueError` anywhere inside gives
`None`. -/
def MatchUp.getVariableDataMax {α δ : Type _} [Max α] (mu : MatchUp α δ) (variable_number : Nat) (sensor_name : String)
    (matchup_number : MuArg) : Py (Option α) :=
  match (do let l ← mu.getVariableData variable_number sensor_name matchup_number; pyMaxOf l) with
  | .ok v => .ok (some v)
  | .error .valueError => .ok none
  | .error e => .error e

/-- MatchUp.py L201-208 `getAdditionalData` (series number `>= 1`): the bounds are looked up first, then the column. -/
def MatchUp.getAdditionalData {α δ : Type _} (mu : MatchUp α δ) (name : String) (matchup_number : Option Nat) :
    Py (List α) := do
  let bounds ← match matchup_number with
    | none => (.ok none : Py (Option (Nat × Nat)))
    | some n => do
      let a ← pyGet mu.idx.cNm (n - 1)
      let b ← pyGet mu.idx.cNm n
      pure (some (a, b))
  let names ← match mu.idx.additional_values_name with
    | some n => .ok n
    | none => .error .keyError
  let col ← pyIndex names name
  let cols ← match mu.additional_values with
    | some a => .ok a
    | none => .error .typeError
  let c ← pyGet cols col
  match bounds with
  | none => pure c
  | some b => pure (slice c b.1 b.2)

/-- MatchUp.py L210-236, L238-264, L266-292: the three getters `getSensorAlongTrackIndex`, `getSensorAcrossTrackIndex`, `getSensorTime` share
this body; `arr1`/`arr2` are the arrays of the first and second sensor. -/
def Idx.getSensorArray {β : Type _} (x : Idx) (arr1 arr2 : Option (List β)) (n_mu : Nat) (sensor_name : String) :
    Py (Option (List β)) := do
  let a ← pyGet x.cNm (n_mu - 1)
  let b ← pyGet x.cNm n_mu
  let pair ← pyGet x.Im (n_mu - 1)
  let name1 ← pyGet x.sensors pair.1
  let name2 ← pyGet x.sensors pair.2
  if sensor_name = name1 then pure (arr1.map fun l => slice l a b)
  else if sensor_name = name2 then pure (arr2.map fun l => slice l a b)
  else .error .indexError

def MatchUp.getSensorAlongTrackIndex {α δ : Type _} (mu : MatchUp α δ) :=
  mu.idx.getSensorArray mu.along_track_index1 mu.along_track_index2
def MatchUp.getSensorAcrossTrackIndex {α δ : Type _} (mu : MatchUp α δ) :=
  mu.idx.getSensorArray mu.across_track_index1 mu.across_track_index2
def MatchUp.getSensorTime {α δ : Type _} (mu : MatchUp α δ) :=
  mu.idx.getSensorArray mu.time1 mu.time2

end Verif
