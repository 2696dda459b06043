import Verif.Model.Simulate
import Verif.Model.MeasurandUnc
import Verif.Model.Binned
import Verif.Model.Switches
import Verif.Model.Result
/-
Model of the comparison of calibrations: `HarmonisationVis.plot_compare_calibration` (harmonisationVis/HarmonisationVis.py L252-293) and
`HarmonisationComparisonPlottingOp.run` (tools/HarmonisationCompPlottingOp.py L122-171).

Drawing itself is not modelled, only what is drawn (`Drawn`, see `Model/Binned`); printing (`verbose`) is not modelled. The command line tool `harm_comp_plot.py` (L53-55) hands the operator
keyword arguments it does not have (`dataset_paths`, `sensor_data_path`), a `TypeError` before anything is done.
-/
set_option autoImplicit false
namespace Verif
variable {α δ : Type}

/-- `set(a) == set(b)`. -/
def sameNames (a b : List String) : Bool := a.all (b.contains ·) && b.all (a.contains ·)

/-- HarmonisationVis.py L277-292: the plot of one sensor of a pair, from the rows of the series. -/
def comparePlot [Field α] (name : String) (x y u : List α) : Py (Drawn α) := do
  let pts ← plotArray (y.map some) (x.map some) (u.map fun v => some (2 * v))
  pure
    { file := "compare_calibration." ++ name ++ ".pdf"
      xlabel := "Data Radiance, $L_{DATA}$"
      ylabel := "Radiance Residual, $\\Delta L = L_{Data} - L_{Est}$"
      lines := [("__nolegend__", pts)] }

/-- HarmonisationVis.py L274-293: one turn of the loop, for the series at position `i`: the two plots and the names of the sensors. -/
def compareTurn [Field α] (x : Idx) (m1 diff u : List α × List α) (i : Nat) : Py (List (Drawn α) × List String) := do
  let a ← pyGet x.cNm i
  let b ← pyGet x.cNm (i + 1)
  let pair ← pyGet x.Im i
  let s ← pyGet x.sensors pair.1
  let d ← comparePlot s (slice m1.1 a b) (slice diff.1 a b) (slice u.1 a b)
  let s' ← pyGet x.sensors pair.2
  let d' ← comparePlot s' (slice m1.2 a b) (slice diff.2 a b) (slice u.2 a b)
  pure ([d, d'], [s, s'])

/-- HarmonisationVis.py L273-293 `while set(plotted_sensors) != set(sensors)`. `left` bounds the number of turns: beyond the last series `idx['cNm'][i_mu+1]` is an `IndexError`. -/
def compareLoop [Field α] (x : Idx) (m1 diff u : List α × List α) : Nat → Nat → List String → Py (List (Drawn α))
  | 0, _, plotted => if sameNames plotted x.sensors then .ok [] else .error .indexError
  | left + 1, i, plotted =>
    if sameNames plotted x.sensors then .ok []
    else do
      let t ← compareTurn x m1 diff u i
      let rest ← compareLoop x m1 diff u left (i + 1) (plotted ++ t.2)
      pure (t.1 ++ rest)

/-- The number of simulated match-ups of every series (HarmonisationVis.py L259). -/
def compareSamples : Nat := 20

/-- HarmonisationVis.py L257-293 `plot_compare_calibration`: the files in the order in which they are written. -/
def compareCalibration [Field α] [Min α] [Max α] (sqrt : α → α) (floatSizes : Bool) (ms : Evaluable α δ) (p : List α) (C : List (List α)) : Py (List (Drawn α)) := do
  let sim ← simulate ms compareSamples
  let m1 ← evaluateMeasurand sim (.num 0)
  let m2 ← evaluateMeasurandUnc sqrt floatSizes C { sim with a := p } (.num 0)
  let diff := (List.zipWith (· - ·) m1.1 m2.1.1, List.zipWith (· - ·) m1.2 m2.1.2)
  compareLoop sim.mu.idx m1 diff m2.2 sim.mu.idx.Im.length 0 []

/-- HarmonisationCompPlottingOp.py L122-171 `run`: the match-ups are opened without uncertainties, the sensor data are set, the result is opened without residuals. -/
def compareOp [Field α] [Min α] [Max α] [DecidableEq α] (env : ReadEnv α δ) (sqrt : α → α) (floatSizes : Bool) (ds : List (Dataset α)) (sd : SensorData α (SensorModel α δ) (AdjModel α))
    (out : Dir α) (listing : List (List Char)) : Py (List (Drawn α)) := do
  let mu ← openMatchUpIf env ds false true
  let ms ← setSensorData defaultAdjustment mu sd
  let q ← openResult out listing false
  compareCalibration sqrt floatSizes ms q.1.parameter q.1.covariance

/-- What is found in the directory after all files have been written: of files of one name the last. -/
def drawnAt (l : List (Drawn α)) (file : String) : Option (Drawn α) := (l.filter fun d => d.file == file).getLast?

end Verif
