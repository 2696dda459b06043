import Verif.Model.Reader
/-
Model of `MatchUp.__repr__` (MatchUp.py L314-396): the content of the printed summary.  The text is modelled as the tree of
printed items (the fixed wording, underlining and two-decimal formatting are not modelled).
-/
set_option autoImplicit false
namespace Verif

/-- Python `l[i]` with a possibly negative index. -/
def pyGetInt {α : Type} (l : List α) (i : Int) : Py α :=
  if 0 ≤ i then pyGet l i.toNat
  else if 0 ≤ (l.length : Int) + i then pyGet l ((l.length : Int) + i).toNat
  else .error .indexError

/-- One printed series: sensor names, number of match-ups, for each of the two sensors the printed state rows (`none` is the line
`...`) and uncertainty types, and the printed K rows. -/
structure SeriesSummary (α : Type) where
  sensor1 : String
  sensor2 : String
  matchups : Nat
  state : List (List (Option (List α)))
  types : List (List Nat)
  ks : List (Option α)
  deriving DecidableEq, Repr

/-- The header lines L319-323 and the series. -/
structure Summary (α : Type) where
  sensors : List String
  total : Nat
  series : Nat
  totalValues : Nat
  body : List (SeriesSummary α)
  deriving DecidableEq, Repr

/-- L337-342: whether the listing is shortened, and the row selection `n_mu_sel`. -/
def rowSelection (Nm : Nat) : Bool × List Int :=
  if Nm < 10 then (false, (List.range Nm).map fun (i : Nat) => (i : Int)) else (true, [0, 1, 2, 3, -1])

/-- The loops L347-362 and L378-390: one printed row per selected row, `...` at the last but one position when shortened. -/
def printedRows {β : Type} (Nm : Nat) (row : Int → Py β) : Py (List (Option β)) :=
  let (shortened, sel) := rowSelection Nm
  sel.zipIdx.mapM fun (ri : Int × Nat) =>
    if shortened ∧ ri.2 = sel.length - 2 then pure none
    else do let v ← row ri.1; pure (some v)

/-- L351-354: the covariates of one sensor at one row. -/
def stateRow {α δ : Type} (mu : MatchUp α δ) (n_mu n_sensor : Nat) (r : Int) : Py (List α) := do
  let name ← pyGet mu.idx.sensors n_sensor
  let m ← pyGet mu.idx.sensor_ms n_sensor
  (List.range m).mapM fun c => do
    let l ← mu.getVariableData (c + 1) name (.num (n_mu + 1))
    pyGetInt l r

/-- L364-372: the uncertainty types of one sensor. -/
def typeRow {α δ : Type} (mu : MatchUp α δ) (n_mu n_sensor : Nat) : Py (List Nat) := do
  let m ← pyGet mu.idx.sensor_ms n_sensor
  (List.range m).mapM fun c => do
    let im ← pyIndex mu.idx.blocks (n_sensor, n_mu + 1, c + 1)
    let u ← pyGet mu.unc im
    pure u.unc.typeID

/-- L325-394, one series. L381/L388 index the whole K array at `i_start + n_mu_i`. -/
def seriesSummary {α δ : Type} (mu : MatchUp α δ) (im : (Nat × Nat) × Nat) : Py (SeriesSummary α) := do
  let n_mu := im.2
  let Nm ← pyGet mu.idx.Nm n_mu
  let n1 ← pyGet mu.idx.sensors im.1.1
  let n2 ← pyGet mu.idx.sensors im.1.2
  let state ← (pairList im.1).mapM fun s => printedRows Nm (stateRow mu n_mu s)
  let types ← (pairList im.1).mapM (typeRow mu n_mu)
  let i_start ← pyGet mu.idx.cNm n_mu
  let ks ← printedRows Nm fun r => pyGetInt mu.ks ((i_start : Int) + r)
  pure { sensor1 := n1, sensor2 := n2, matchups := Nm, state := state, types := types, ks := ks }

/-- L314-396 `__repr__`. L320 prints `len(cNm)` as the number of series. -/
def summary {α δ : Type} (mu : MatchUp α δ) : Py (Summary α) := do
  let total ← pyGet mu.idx.cNm (mu.idx.cNm.length - 1)
  let totalValues ← pyGet mu.idx.idx (mu.idx.idx.length - 1)
  let body ← mu.idx.Im.zipIdx.mapM (seriesSummary mu)
  pure { sensors := mu.idx.sensors, total := total, series := mu.idx.cNm.length, totalValues := totalValues, body := body }

end Verif
