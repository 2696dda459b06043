import Verif.Model.SensorData
import Verif.Model.Transform
/-
Model of `core/matchup/matchupToolbox/utils/matchup_maths.py` (evaluate_measurand, evaluate_adjusted_measurand, evaluate_K) and of the sensor
data attributes carried through `Transform2NormInd.run` / `reverse`.

Two-dimensional arrays with two columns are modelled as a pair of columns. float32 rounding is not modelled.  The branch of
`evaluate_measurand` with a parameter covariance matrix (L85-87, L128-140) is in Model/MeasurandUnc.
-/
set_option autoImplicit false
namespace Verif
variable {α δ : Type}

/-- A sensor model: `f(X, a, c, across, along, time)` returning the measurand and its derivatives (or `None`); `X` is given by its columns,
the derivatives by their columns. -/
abbrev SensorModel (α δ : Type) :=
  List (List α) → List α → List α → Option (List α) → Option (List α) → Option (List δ) → Py (List α × Option (List (List α)))

/-- An adjustment model: adjusted measurand and its derivative. -/
abbrev AdjModel (α : Type) := List α → Py (List α × List α)

/-- A match-up with executable sensor models. -/
abbrev Evaluable (α δ : Type) := MatchUpS α δ (SensorModel α δ) (AdjModel α)

/-- MatchUpReader.py L616-630 `_default_adjustment_model`. -/
def defaultAdjustment [One α] : AdjModel α := fun m => .ok (m, m.map fun _ => 1)

/-- The `matchup_series` argument: an integer (0 means all) or a list. -/
inductive SelArg where
  | num (n : Nat)
  | list (l : List Nat)
  deriving DecidableEq, Repr

/-- L53-56 (L190-193): the selected series. -/
def SelArg.series (x : Idx) : SelArg → List Nat
  | .num 0 => seriesSet x.n_mu
  | .num n => [n]
  | .list l => l

/-- L59-64 (L196-201): sizes of the series whose number is in the selection, in *series* order, and their running totals. -/
def selBounds (x : Idx) (sel : List Nat) : List Nat :=
  prefixSums ((x.Nm.zipIdx.filter fun p => sel.contains (p.2 + 1)).map (·.1))

/-- L107-108: positions of the blocks of one sensor in one series. -/
def covBlocks (x : Idx) (n_sensor n_mu : Nat) : List Nat :=
  ((x.n_sensor.zip x.n_mu).zipIdx.filter fun b => b.1 == (n_sensor, n_mu)).map (·.2)

/-- `[v for s, v in zip(labels, vals) if s == name]` (L112-113); a missing label list is a `KeyError`. -/
def pickLabelled (labels : Option (List String)) (vals : List α) (name : String) : Py (List α) :=
  match labels with
  | some ls => .ok (((ls.zip vals).filter fun p => p.1 == name).map (·.2))
  | none => .error .keyError

/-- L103-126: measurand (and derivatives) of one sensor in one series. -/
def sideMeasurand [Zero α] (ms : Evaluable α δ) (n_mu n_sensor : Nat) : Py (List α × Option (List (List α))) := do
  let name ← pyGet ms.mu.idx.sensors n_sensor
  let cov_idxs ← (covBlocks ms.mu.idx n_sensor n_mu).mapM fun b => do
    let lo ← pyGet ms.mu.idx.idx b
    let hi ← pyGet ms.mu.idx.idx (b + 1)
    pure (lo, hi)
  let a ← pickLabelled ms.mu.idx.parameter_sensor ms.a name
  let c ← pickLabelled ms.mu.idx.constant_sensor ms.constant name
  let first ← pyGet cov_idxs 0
  let rows := first.2 - first.1
  let X ← cov_idxs.mapM fun b => setSlice (List.replicate rows 0) 0 rows (slice ms.mu.values b.1 b.2)
  let xt ← ms.mu.getSensorAcrossTrackIndex n_mu name
  let al ← ms.mu.getSensorAlongTrackIndex n_mu name
  let t ← ms.mu.getSensorTime n_mu name
  let f ← pyGet ms.sensor_model n_sensor
  f X a c xt al t

/-- The loop over the selected series shared by L91-142 and L229-243: `out[lo:hi, 0] = f(.., first sensor)`, then
`out[lo:hi, 1] = f(.., second sensor)`. (`Im[n_mu-1]` with `n_mu = 0` would wrap around in Python; such a series has no block, so that
the call fails with `IndexError` anyway.) -/
def fillRows (x : Idx) (sel : List Nat) (f : Nat → Nat → List α → Py (List α)) (init : List α × List α) : Py (List α × List α) :=
  sel.zipIdx.foldlM (fun out nk => do
    let pair ← pyGet x.Im (nk.1 - 1)
    let lo ← pyGet (selBounds x sel) nk.2
    let hi ← pyGet (selBounds x sel) (nk.2 + 1)
    let y1 ← f nk.1 pair.1 (slice out.1 lo hi)
    let c1 ← setSlice out.1 lo hi y1
    let y2 ← f nk.1 pair.2 (slice out.2 lo hi)
    let c2 ← setSlice out.2 lo hi y2
    pure (c1, c2)) init

/-- L23-152 `evaluate_measurand` without derivatives. -/
def evaluateMeasurand [Zero α] (ms : Evaluable α δ) (arg : SelArg) : Py (List α × List α) := do
  let sel := arg.series ms.mu.idx
  let n ← pyGet (selBounds ms.mu.idx sel) ((selBounds ms.mu.idx sel).length - 1)
  fillRows ms.mu.idx sel (fun n_mu n_sensor _ => do
    let y ← sideMeasurand ms n_mu n_sensor
    pure y.1) (List.replicate n 0, List.replicate n 0)

/-- L155-245 `evaluate_adjusted_measurand` without derivatives. -/
def evaluateAdjusted [Zero α] (ms : Evaluable α δ) (arg : SelArg) : Py (List α × List α) := do
  let m ← evaluateMeasurand ms arg
  fillRows ms.mu.idx (arg.series ms.mu.idx) (fun _ n_sensor cur => do
    let f ← pyGet ms.adjustment_model n_sensor
    let y ← f cur
    pure y.1) m

/-- L248-268 `evaluate_K`. -/
def evaluateK [Zero α] [Sub α] (ms : Evaluable α δ) (arg : SelArg) : Py (List α) := do
  let m ← evaluateAdjusted ms arg
  npZip (· - ·) m.2 m.1

/-- L73-82: with `return_derivatives=True` the output array of every sensor pair is first sized with `idx['sensor_ms']` and `idx['sensor_a']`; no
code ever stores an entry `sensor_a` in `idx`, so the second access is a `KeyError`. Without sensor pairs the branch is not modelled further. -/
def evaluateMeasurandWithDerivatives (ms : Evaluable α δ) (_arg : SelArg) : Py Unit :=
  ms.mu.idx.Im.forM fun p => do
    let _ ← pyGet ms.mu.idx.sensor_ms p.1
    .error .keyError

/-- Transform2NormInd.py L112-134: parameters, constants and models are copied by `run`. -/
def MatchUpS.normalise {ρ σ : Type} [Field α] (ms : MatchUpS α δ ρ σ) : Py (MatchUpS α δ ρ σ) := do
  let nm ← transformRun ms.mu
  pure { ms with mu := nm }

/-- Transform2NormInd.py L217-236: parameters, constants and models are copied by `reverse`. -/
def MatchUpS.denormalise {ρ σ : Type} [Field α] (ms : MatchUpS α δ ρ σ) : Py (MatchUpS α δ ρ σ) := do
  let nm ← transformReverse ms.mu
  pure { ms with mu := nm }

end Verif
