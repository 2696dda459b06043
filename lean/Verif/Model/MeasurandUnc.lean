import Verif.Model.Measurand
/-
Model of `evaluate_measurand` with a parameter covariance matrix (core/matchup/matchupToolbox/utils/matchup_maths.py L85-87, L128-147).

The square root is a parameter. `V.reshape((len(V)**0.5, len(V)**0.5))` passes numbers that are not integers as sizes: numpy 1.11, the oldest version setup.py allows, warns and
takes them; later versions raise `TypeError`. Which of the two holds is the parameter `floatSizes`. Measurands are evaluated for all series first, then uncertainties; the code does both
series by series, so that when there are several errors another one may be raised.
-/
set_option autoImplicit false
namespace Verif
variable {α δ : Type} [Field α]

/-- L133-136: the rows and columns of the sensor's parameters. A mask of another shape than the matrix is an `IndexError`. -/
def sensorCovariance (floatSizes : Bool) (labels : Option (List String)) (C : List (List α)) (name : String) : Py (List (List α)) :=
  match labels with
  | none => .error .keyError
  | some ls =>
    let loc := ls.map (· == name)
    if C.length ≠ loc.length ∨ C.any (fun row => row.length != loc.length) then .error .indexError
    else
      let V := (loc.zip C).flatMap fun r => ((loc.zip r.2).filter fun e => r.1 && e.1).map (·.2)
      if floatSizes then .ok ((List.range V.length.sqrt).map fun i => slice V (i * V.length.sqrt) (i * V.length.sqrt + V.length.sqrt))
      else .error .typeError

/-- L138: `diag(J[:, m:].dot(V).dot(J[:, m:].T)) ** 0.5`; `J` is given by its columns. -/
def propagate (sqrt : α → α) (J : List (List α)) (m : Nat) (V : List (List α)) : Py (List α) :=
  let Ja := J.drop m
  if Ja.length ≠ V.length then .error .valueError
  else .ok ((List.range (J.headD []).length).map fun r =>
    sqrt ((List.range V.length).map fun b => ((List.range V.length).map fun a => (Ja.getD a []).getD r 0 * (V.getD a []).getD b 0).sum * (Ja.getD b []).getD r 0).sum)

/-- L128-138 for one sensor in one series; `cur` are the values the array holds so far, which stay when there are no derivatives. -/
def sideUncertainty (sqrt : α → α) (floatSizes : Bool) (C : List (List α)) (ms : Evaluable α δ) (n_mu n_sensor : Nat) (cur : List α) : Py (List α) := do
  let y ← sideMeasurand ms n_mu n_sensor
  match y.2 with
  | none => pure cur
  | some J => do
    let m ← pyGet ms.mu.idx.sensor_ms n_sensor
    let name ← pyGet ms.mu.idx.sensors n_sensor
    let V ← sensorCovariance floatSizes ms.mu.idx.parameter_sensor C name
    propagate sqrt J m V

/-- L23-152 `evaluate_measurand` with a parameter covariance matrix, without derivatives: measurands and uncertainties. -/
def evaluateMeasurandUnc (sqrt : α → α) (floatSizes : Bool) (C : List (List α)) (ms : Evaluable α δ) (arg : SelArg) : Py ((List α × List α) × (List α × List α)) := do
  let y ← evaluateMeasurand ms arg
  let sel := arg.series ms.mu.idx
  let n ← pyGet (selBounds ms.mu.idx sel) ((selBounds ms.mu.idx sel).length - 1)
  let u ← fillRows ms.mu.idx sel (sideUncertainty sqrt floatSizes C ms) (List.replicate n 0, List.replicate n 0)
  pure (y, u)

end Verif
