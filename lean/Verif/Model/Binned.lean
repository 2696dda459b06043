import Verif.Model.Vis
/-
Model of the plots over binned variables: EIV/core/matchup/matchupVis/MatchUpVis.py L102-142 and L309-447, HarmonisationVis.py L230-250, `plot_scatter` of EIV/core/utils/plots.py with error bars, and
the end of `HarmonisationPlottingOp.run`. What is drawn is modelled as named files with labelled lists of points; the directory, colours, and axes are not modelled, nor are the plots
that were written before an exception. The greatest and least values of the covariates are kept in attributes by the code; they depend only on data of the match-up that no method changes, and
are computed afresh here. `none` is `nan`.
-/
set_option autoImplicit false
namespace Verif
variable {α : Type}

/-- `a < b` for numbers or `nan`. -/
def nanLt [LinearOrder α] (a b : Option α) : Bool :=
  match a, b with
  | some x, some y => decide (x < y)
  | _, _ => false

/-- `a <= b` for numbers or `nan`. -/
def nanLe [LinearOrder α] (a b : Option α) : Bool :=
  match a, b with
  | some x, some y => decide (x ≤ y)
  | _, _ => false

/-- Python's `min` over an array: an element replaces the one kept if it is less. -/
def nanMin [LinearOrder α] : List (Option α) → Py (Option α)
  | [] => .error .valueError
  | x :: xs => .ok (xs.foldl (fun a b => if nanLt b a then b else a) x)

/-- Python's `max` over an array. -/
def nanMax [LinearOrder α] : List (Option α) → Py (Option α)
  | [] => .error .valueError
  | x :: xs => .ok (xs.foldl (fun a b => if nanLt a b then b else a) x)

/-- What `bin` returns, with possible `nan` in the centres. -/
structure BinnedNan (α : Type) where
  average : List (Option α)
  std : List (Option α)
  centre : List (Option α)
  deriving DecidableEq

/-- stats.py L60 `bin_ranges`, with possible `nan`. -/
def binEdgesNan [Field α] (lo hi : Option α) (n : Nat) : List (Option α) :=
  (List.range (n + 1)).map fun (i : Nat) => lo.bind fun a => hi.map fun b => a + (i : α) * (b - a) / (n : α)

/-- stats.py L53-81 `bin`, with possible `nan` in the variable and in the range. (`bin` of Model/Stats is the same without `nan`: see `binNan_numbers`.) -/
def binNan [Field α] [LinearOrder α] (sqrt : α → α) (Y : List α) (X : List (Option α)) (n : Nat) (lo hi : Option α) : Py (BinnedNan α) := do
  let edges := binEdgesNan lo hi n
  let vals ← (edges.zip edges.tail).mapM fun ab => (whereIdx X fun x => nanLe ab.1 x && nanLt x ab.2).mapM (pyGet Y)
  pure { average := vals.map pyAverage, std := vals.map (pyStd sqrt), centre := (edges.zip edges.tail).map fun ab => ab.1.bind fun a => ab.2.map fun b => (b + a) / 2 }

/-- A file written by `plot_scatter`: its name (without directory), the labels of the axes, and the lines drawn: label and points (abscissa, ordinate, half the length of the error bar). -/
structure Drawn (α : Type) where
  file : String
  xlabel : String
  ylabel : String
  lines : List (String × List (α × α × Option α))
  deriving DecidableEq

/-- plots.py L57-70: points with `nan` in one coordinate are left out. -/
def numericPoints (Y X yerr : List (Option α)) : List (α × α × Option α) :=
  (X.zip (Y.zip yerr)).filterMap fun p => p.1.bind fun x => p.2.1.map fun y => (x, y, p.2.2)

/-- plots.py L18-203 `plot_scatter` for single arrays: `X[0]` (L148) fails when no point is left; `X` and `Y` are wrapped into lists (L149-150) but `yerr` is not, so that `yerr[0]` (L168),
the first deviation, is the error of all points. -/
def plotArray (Y X yerr : List (Option α)) : Py (List (α × α × Option α)) :=
  match numericPoints Y X yerr with
  | [] => .error .indexError
  | p :: ps => .ok ((p :: ps).map fun q => (q.1, q.2.1, p.2.2))

/-- plots.py L18-203 `plot_scatter` for lists of arrays, with error bars. An empty list of abscissas becomes an array of labels (L53-56), with which the list of ordinates is indexed (L63). -/
def plotErrLists (Y X yerr : List (List (Option α))) (legend : List String) : Py (List (String × List (α × α × Option α))) :=
  match X with
  | [] => .error .typeError
  | _ :: _ => do
    let _ ← pyGet Y 0
    (X.zip (Y.zip yerr)).zipIdx.mapM fun p => do
      let label ← pyGet legend p.2
      pure (label, numericPoints p.1.2.1 p.1.1 p.1.2.2)

/-- `a[~isnan(keep)]`. -/
def whereNumber (a keep : List (Option α)) : List (Option α) := ((a.zip keep).filter fun p => p.2.isSome).map (·.1)

/-- The arrays of one series in the plot of all series. -/
structure SeriesBins (α : Type) where
  averages : List (Option α)
  stds : List (Option α)
  centres : List (Option α)

/-- MatchUpVis.py L347-360, L424-439: one series, drawn over its own range (first result) and binned over the whole range for the plot of all series. -/
def binSeries [Field α] [LinearOrder α] (sqrt : α → α) (y : List α) (X : List (Option α)) (lo hi : Option α) : Py (List (α × α × Option α) × SeriesBins α) := do
  let a ← nanMin X
  let b ← nanMax X
  let own ← binNan sqrt y X 50 a b
  let pts ← plotArray own.average own.centre own.std
  let full ← binNan sqrt y X 50 lo hi
  pure (pts, { averages := whereNumber full.average full.average
               stds := whereNumber full.std full.average
               centres := whereNumber full.centre full.average })

/-- The optional entries `sensor_model_variable_names` and `sensor_model_variable_labels` of the sensor data. -/
structure VariableNames where
  names : String → Option (List String)
  labels : String → Option (List String)

/-- MatchUpVis.py L112-122 `get_X_label`, `get_X_name`. -/
def covariateName (given : String → Option (List String)) (cov : Nat) (sensor : String) : Py String :=
  match given sensor with
  | some l => pyGet l (cov - 1)
  | none => pure ("X" ++ toString cov)

/-- MatchUp.py L194-199 `getVariableDataMin`. -/
def MatchUp.getVariableDataMin {δ : Type} [Min α] (mu : MatchUp α δ) (variable_number : Nat) (sensor_name : String) (matchup_number : MuArg) : Py (Option α) :=
  match (do let l ← mu.getVariableData variable_number sensor_name matchup_number; pyMinOf l) with
  | .ok v => .ok (some v)
  | .error .valueError => .ok none
  | .error e => .error e

/-- The name and the number of covariates of the second sensor of a series (counted from 0). -/
def secondSensor (x : Idx) (i : Nat) : Py (String × Nat) := do
  let p ← pyGet x.Im i
  let name ← pyGet x.sensors p.2
  let m ← pyGet x.sensor_ms p.2
  pure (name, m)

/-- MatchUpVis.py L124-142 `set_Xmax_Xmin`: the least and the greatest value of every covariate of the second sensors. (Python's `max` and `min` take `None` for less than any number.) -/
def covariateRanges {δ : Type} [LinearOrder α] (mu : MatchUp α δ) : Py (List (Option α × Option α)) := do
  let top ← pyMax mu.idx.sensor_ms
  let series ← pyMax mu.idx.n_mu
  (List.range top).mapM fun c => do
    let l ← (List.range series).mapM fun i => do
      let s ← secondSensor mu.idx i
      if c + 1 ≤ s.2 then do
        let hi ← mu.getVariableDataMax (c + 1) s.1 (.num (i + 1))
        let lo ← mu.getVariableDataMin (c + 1) s.1 (.num (i + 1))
        pure (some (lo, hi))
      else pure none
    let hi ← pyMaxOf ((l.filterMap id).map (·.2))
    let lo ← pyMinOf ((l.filterMap id).map (·.1))
    pure (lo, hi)

/-- `mus`, by default all series (L317-318, L411-412). Numbers are from 1; Python would also take 0, for the last. -/
def chosenSeries (x : Idx) (mus : Option (List Nat)) : Py (List Nat) :=
  match mus with
  | some l => .ok l
  | none => do
    let k ← pyMax x.n_mu
    pure ((List.range k).map (· + 1))

/-- What one turn of the loop over the series (L333-360) leaves: the name and the label of the covariate, and if the second sensor has the covariate the plot of the series and its arrays. -/
structure SeriesTurn (α : Type) where
  name : String
  label : String
  drawn : Option (Drawn α × SeriesBins α)

/-- MatchUpVis.py L333-360, for the covariate number `cov` (from 1); `p` is a series number with its position in `mus`. A range that is `None` fails in the arithmetic of `bin`. -/
def covariateTurn {δ : Type} [Field α] [LinearOrder α] (sqrt : α → α) (mu : MatchUp α δ) (given : VariableNames) (labels suffixes : List String) (title fname : String) (Y : List α) (cov : Nat)
    (range : Option α × Option α) (p : Nat × Nat) : Py (SeriesTurn α) := do
  let i1 ← pyGet mu.idx.cNm (p.1 - 1)
  let i2 ← pyGet mu.idx.cNm p.1
  let s ← secondSensor mu.idx (p.1 - 1)
  let name ← covariateName given.names cov s.1
  let label ← covariateName given.labels cov s.1
  let fn ← pyGet suffixes (p.1 - 1)
  if cov ≤ s.2 then do
    let X ← mu.getVariableData cov s.1 (.num p.1)
    let own ← pyGet labels p.2
    match range with
    | (some lo, some hi) => do
      let r ← binSeries sqrt (slice Y i1 i2) (X.map some) (some lo) (some hi)
      pure
        { name := name
          label := "$" ++ label ++ "$ (Binned)"
          drawn := some (
            { file := fname ++ "." ++ name ++ "_" ++ s.1 ++ "_binned." ++ fn ++ ".pdf"
              xlabel := "$" ++ label ++ "$ (Binned)" ++ " - " ++ s.1
              ylabel := title ++ " (" ++ own ++ ")"
              lines := [("__nolegend__", r.1)] }, r.2) }
    | _ => .error .typeError
  else pure { name := name, label := "$" ++ label ++ "$ (Binned)", drawn := none }

/-- MatchUpVis.py L309-366 `plot_Y_X_binned_line`. The names used for the plot of all series are those of the last turn (L362-363). -/
def binnedX {δ : Type} [Field α] [LinearOrder α] (sqrt : α → α) (mu : MatchUp α δ) (given : VariableNames) (labels suffixes : List String) (title fname : String) (Y : List α)
    (mus : Option (List Nat)) : Py (List (Drawn α)) := do
  let series ← chosenSeries mu.idx mus
  let top ← pyMax mu.idx.sensor_ms
  let plots ← (List.range top).mapM fun c => do
    let ranges ← covariateRanges mu
    let range ← pyGet ranges c
    let turns ← series.zipIdx.mapM (covariateTurn sqrt mu given labels suffixes title fname Y (c + 1) range)
    match turns.getLast? with
    | none => .error .unboundLocalError
    | some last => do
      let drawn := turns.filterMap (·.drawn)
      let lines ← plotErrLists (drawn.map (·.2.averages)) (drawn.map (·.2.centres)) (drawn.map (·.2.stds)) labels
      pure (drawn.map (·.1) ++
        [{ file := fname ++ "." ++ last.name ++ "_sensor_2_binned.pdf"
           xlabel := last.label ++ " - Sensor 2"
           ylabel := title
           lines := lines }])
  pure plots.flatten

/-- MatchUpVis.py L415-439: one turn of the loop over the series, for a variable with a value for every match-up. -/
def additionalTurn [Field α] [LinearOrder α] (sqrt : α → α) (idx : Idx) (labels suffixes : List String) (xName xLabel title fname : String) (Y : List α) (x : List (Option α))
    (lo hi : Option α) (p : Nat × Nat) : Py (Drawn α × SeriesBins α) := do
  let i1 ← pyGet idx.cNm (p.1 - 1)
  let i2 ← pyGet idx.cNm p.1
  let s ← secondSensor idx (p.1 - 1)
  let fn ← pyGet suffixes (p.1 - 1)
  let own ← pyGet labels p.2
  let r ← binSeries sqrt (slice Y i1 i2) (slice x i1 i2) lo hi
  pure (
    { file := fname ++ "." ++ xName ++ "_" ++ s.1 ++ "_binned." ++ fn ++ ".pdf"
      xlabel := xLabel ++ " - " ++ s.1
      ylabel := title ++ " (" ++ own ++ ")"
      lines := [("__nolegend__", r.1)] }, r.2)

/-- MatchUpVis.py L368-447 `plot_Y_x_binned_line`. -/
def binnedAdditional [Field α] [LinearOrder α] (sqrt : α → α) (idx : Idx) (labels suffixes : List String) (xName xLabel title fname : String) (Y : List α) (x : List (Option α))
    (mus : Option (List Nat)) : Py (List (Drawn α)) := do
  let lo ← nanMin x
  let hi ← nanMax x
  let series ← chosenSeries idx mus
  let turns ← series.zipIdx.mapM (additionalTurn sqrt idx labels suffixes xName xLabel title fname Y x lo hi)
  let lines ← plotErrLists (turns.map (·.2.averages)) (turns.map (·.2.centres)) (turns.map (·.2.stds)) labels
  pure (turns.map (·.1) ++
    [{ file := fname ++ "." ++ xName ++ "_sensor_2_binned.pdf"
       xlabel := xLabel ++ " - Sensor 2"
       ylabel := title
       lines := lines }])

/-- The title and the beginning of the file names of the plots of a residual (HarmonisationVis.py L230-250). -/
def residualTitle : Quantity → String × String
  | .kres_harm_harm => ("Harmonised K Residual", "k_res_harmonised")
  | _ => ("K Residual = K - (Nominal - Harmonised)", "k_res_nom_harm")

/-- `plot_kres_harm_harm_X_binned_line`, `plot_kres_nom_harm_X_binned_line` (HarmonisationVis.py L230-236). Residuals that could not be computed are an exception as a value, which cannot be sliced. -/
def plotOverCovariates [Field α] [LinearOrder α] (sqrt : α → α) (given : VariableNames) (q : Quantity) (mus : Option (List Nat)) : VisM α (List (Drawn α)) := do
  let y ← getFull q
  let labels ← getLabels
  let suffixes ← getSuffixes
  let ms ← theMatchUp .attributeError
  match y with
  | none => .lift (.error .typeError)
  | some Y => .lift (binnedX sqrt ms.mu given labels suffixes (residualTitle q).1 (residualTitle q).2 Y mus)

/-- `plot_kres_harm_harm_additional_variables_binned_line` and its like (HarmonisationVis.py L238-250); `isNan` tells which values read from the files are `nan`. -/
def plotOverAdditional [Field α] [LinearOrder α] (sqrt : α → α) (isNan : α → Bool) (q : Quantity) (mus : Option (List Nat)) : VisM α (List (List (Drawn α))) := do
  let ms ← theMatchUp .attributeError
  match ms.mu.idx.additional_values_name with
  | none => .lift (.error .keyError)
  | some names => names.mapM fun name => do
    let y ← getFull q
    let x ← .lift (ms.mu.getAdditionalData name none)
    let labels ← getLabels
    let suffixes ← getSuffixes
    match y with
    | none => .lift (.error .typeError)
    | some Y => .lift (binnedAdditional sqrt ms.mu.idx labels suffixes name name (residualTitle q).1 (residualTitle q).2 Y (x.map fun v => if isNan v then none else some v) mus)

/-- The calls of a list, one after the other, to the first exception. -/
def runCalls [Field α] (draw : Nat → Nat → Nat → List Nat) (fuel : Nat) : List VisCall → VisM α Unit
  | [] => pure ()
  | c :: cs => do
    let _ ← c.exec draw fuel
    runCalls draw fuel cs

/-- HarmonisationPlottingOp.py L142-169: all plots of `run`; the result is what is drawn over binned variables. -/
def plottingRun [Field α] [LinearOrder α] (sqrt : α → α) (given : VariableNames) (isNan : α → Bool) (draw : Nat → Nat → Nat → List Nat) (fuel : Nat) : VisM α (List (Drawn α)) := do
  runCalls draw fuel plottingRunCalls
  let a ← plotOverCovariates sqrt given .kres_harm_harm none
  let b ← plotOverCovariates sqrt given .kres_nom_harm none
  let c ← plotOverAdditional sqrt isNan .kres_harm_harm none
  let d ← plotOverAdditional sqrt isNan .kres_nom_harm none
  pure (a ++ b ++ c.flatten ++ d.flatten)

end Verif
