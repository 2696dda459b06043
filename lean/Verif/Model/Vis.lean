import Verif.Model.Measurand
import Verif.Model.Stats
import Verif.Model.Sample
import Mathlib.Logic.Function.Basic
/-
Model of the data side of the plots: EIV/core/matchup/matchupVis/MatchUpVis.py, EIV/core/matchup/matchupToolbox/harmonisation/harmonisationVis/HarmonisationVis.py,
`plot_scatter` of EIV/core/utils/plots.py, and the order of calls in `HarmonisationPlottingOp.run`. What is drawn is modelled as labelled lists of points; colours, axes, and files
are not. Numbers are those of a field: `nan` occurs only where the code computes it. The object keeps everything it has computed in attributes, also after an exception,
so the model is a state with methods that return a value or raise an exception, and a new state.
-/
set_option autoImplicit false
namespace Verif
variable {α : Type}

/-- The numerical quantities with a value for every match-up: the stems of the attributes `L1_nom`, `L2_nom`, `kres_nom_nom`, `L1_harm`, `L2_harm`, `kres_harm_harm`, `kres_nom_harm`. -/
inductive Quantity
  | L1_nom | L2_nom | kres_nom_nom | L1_harm | L2_harm | kres_harm_harm | kres_nom_harm
  deriving DecidableEq, Repr

/-- The attributes of a `HarmonisationVis` object (HarmonisationVis.py L32-74), including the two objects it refers to. `full q`, `samples q`, `monthly q` stand for the attributes
`q`, `q_musamples`, and `q_monthlymean` with `q_monthlymean_months`. `draws` counts the calls of the random number generator. -/
structure Vis (α : Type) where
  ms : Option (Evaluable α DateTime)
  result : Option (List α × List String)
  full : Quantity → Option (List α)
  samples : Quantity → Option (List (List α))
  monthly : Quantity → Option (List (List (α × DateTime)))
  times : Option (List DateTime)
  timesSamples : Option (List (List DateTime))
  positions : Option (List (List Nat))
  total : Option Nat
  muTotal : Option Nat
  labels : Option (List String)
  suffixes : Option (List String)
  draws : Nat

/-- HarmonisationVis.py L32-74 `__init__`. -/
def newVis (ms : Option (Evaluable α DateTime)) (result : Option (List α × List String)) : Vis α where
  ms := ms
  result := result
  full := fun _ => none
  samples := fun _ => none
  monthly := fun _ => none
  times := none
  timesSamples := none
  positions := none
  total := none
  muTotal := none
  labels := none
  suffixes := none
  draws := 0

/-- A method: the state is kept when an exception is raised. -/
def VisM (α β : Type) := Vis α → Py β × Vis α

/-- A value. -/
def VisM.ret {β : Type} (b : β) : VisM α β := fun v => (.ok b, v)

/-- One computation after the other. -/
def VisM.andThen {β γ : Type} (x : VisM α β) (f : β → VisM α γ) : VisM α γ := fun v =>
  match x v with
  | (.ok b, v') => f b v'
  | (.error e, v') => (.error e, v')

instance : Monad (VisM α) where
  pure := VisM.ret
  bind := VisM.andThen

/-- A computation that does not touch the object. -/
def VisM.lift {β : Type} (x : Py β) : VisM α β := fun v => (x, v)

/-- The pattern `if self.x is None: self.x = ...; return self.x`. -/
def memo {β : Type} (get : Vis α → Option β) (set : β → Vis α → Vis α) (x : VisM α β) : VisM α β := fun v =>
  match get v with
  | some b => (.ok b, v)
  | none =>
    match x v with
    | (.ok b, v') => (.ok b, set b v')
    | (.error e, v') => (.error e, v')

/-- `try: ... except: raise ValueError(...)`. -/
def orValueError {β : Type} (x : VisM α β) : VisM α β := fun v =>
  match x v with
  | (.ok b, v') => (.ok b, v')
  | (.error _, v') => (.error .valueError, v')

/-- `self.MatchUpData` when it must not be `None`: what is raised otherwise depends on the place. -/
def theMatchUp (e : PyErr) : VisM α (Evaluable α DateTime) := fun v =>
  match v.ms with
  | some ms => (.ok ms, v)
  | none => (.error e, v)

/-- MatchUpVis.py L62-82 `get_L1_nom`, `get_L2_nom`. -/
def getNominal (q : Quantity) (name : String) : VisM α (List α) :=
  memo (·.full q) (fun b v => { v with full := Function.update v.full q (some b) }) do
    let ms ← theMatchUp .valueError
    orValueError (.lift (ms.mu.getAdditionalData name none))

/-- `L2 - L1 - ks`, with the two measurands evaluated in this order. -/
def residualOf [Sub α] (second first : VisM α (List α)) : VisM α (List α) := do
  let l2 ← second
  let l1 ← first
  let d ← .lift (npZip (· - ·) l2 l1)
  let ms ← theMatchUp .attributeError
  .lift (npZip (· - ·) d ms.mu.ks)

/-- MatchUpVis.py L84-92 `get_kres_nom_nom`. -/
def getKresNomNom [Sub α] : VisM α (List α) :=
  memo (·.full .kres_nom_nom) (fun b v => { v with full := Function.update v.full .kres_nom_nom (some b) })
    (residualOf (getNominal .L2_nom "nominal_measurand2") (getNominal .L1_nom "nominal_measurand1"))

/-- The match-up with other parameters (`a` and `idx['parameter_sensor']`). -/
def MatchUpS.withParameters {δ ρ σ : Type} (ms : MatchUpS α δ ρ σ) (a : List α) (sensors : List String) : MatchUpS α δ ρ σ :=
  { ms with
    a := a
    mu := { ms.mu with idx := { ms.mu.idx with parameter_sensor := some sensors } } }

/-- `self.L1_harm = L_est[:, 0]`, `self.L2_harm = L_est[:, 1]`. -/
def Vis.setHarm (v : Vis α) (L : List α × List α) : Vis α :=
  { v with full := Function.update (Function.update v.full .L1_harm (some L.1)) .L2_harm (some L.2) }

/-- HarmonisationVis.py L76-93 `get_L1_harm`: the parameters of the match-up are replaced by the harmonised ones, the measurands evaluated, and the parameters put back - unless the
evaluation fails. -/
def getL1Harm [Zero α] : VisM α (List α) := fun v =>
  match v.full .L1_harm with
  | some l => (.ok l, v)
  | none =>
    match v.ms with
    | none => (.error .valueError, v)
    | some ms =>
      match ms.mu.idx.parameter_sensor, v.result with
      | some old, some r =>
        let changed := ms.withParameters r.1 r.2
        match evaluateAdjusted changed (.num 0) with
        | .ok L => (.ok L.1, { v.setHarm L with ms := some (changed.withParameters ms.a old) })
        | .error _ => (.error .valueError, { v with ms := some changed })
      | _, _ => (.error .valueError, v)

/-- HarmonisationVis.py L95-106 `get_L2_harm`: here the parameters are not replaced. -/
def getL2Harm [Zero α] : VisM α (List α) := fun v =>
  match v.full .L2_harm with
  | some l => (.ok l, v)
  | none =>
    match v.ms with
    | none => (.error .valueError, v)
    | some ms =>
      match evaluateAdjusted ms (.num 0) with
      | .ok L => (.ok L.2, v.setHarm L)
      | .error _ => (.error .valueError, v)

/-- `try: self.x = ... except: return ValueError(...)`: the exception is returned as a value, here `none`. -/
def orReturned {β : Type} (x : VisM α β) : VisM α (Option β) := fun v =>
  match x v with
  | (.ok b, v') => (.ok (some b), v')
  | (.error _, v') => (.ok none, v')

/-- HarmonisationVis.py L108-124 `get_kres_harm_harm`, `get_kres_nom_harm`. -/
def getKresHarm [Zero α] [Sub α] (q : Quantity) (second : VisM α (List α)) : VisM α (Option (List α)) :=
  orReturned (memo (·.full q) (fun b v => { v with full := Function.update v.full q (some b) }) (residualOf second getL1Harm))

/-- The getters of the quantities. -/
def getFull [Zero α] [Sub α] : Quantity → VisM α (Option (List α))
  | .L1_nom => do let l ← getNominal .L1_nom "nominal_measurand1"; pure (some l)
  | .L2_nom => do let l ← getNominal .L2_nom "nominal_measurand2"; pure (some l)
  | .kres_nom_nom => do let l ← getKresNomNom; pure (some l)
  | .L1_harm => do let l ← getL1Harm; pure (some l)
  | .L2_harm => do let l ← getL2Harm; pure (some l)
  | .kres_harm_harm => getKresHarm .kres_harm_harm getL2Harm
  | .kres_nom_harm => getKresHarm .kres_nom_harm (getNominal .L2_nom "nominal_measurand2")

/-- MatchUpVis.py L94-100 `get_times`. A match-up without times (`None`, which no reader produces) would fail where they are used. -/
def getTimes : VisM α (List DateTime) :=
  memo (·.times) (fun b v => { v with times := some b }) do
    let ms ← theMatchUp .valueError
    match ms.mu.time2 with
    | some t => pure t
    | none => .lift (.error .typeError)

/-- `MAX_SCATTER_SAMPLES` (MatchUpVis.py L30). -/
def maxScatterSamples : Nat := 10000

/-- MatchUpVis.py L176-187: the positions for every series; `draw k total n` stands for `(total * rand(n)).astype(int)` in the `k`-th call of the generator. The number of samples is rounded
down in exact arithmetic. -/
def seriesPositions (draw : Nat → Nat → Nat → List Nat) (total : Nat) : Nat → List (Nat × Nat) → List (List Nat) × Nat
  | k, [] => ([], k)
  | k, b :: bs =>
    if maxScatterSamples < total then
      let n := (b.2 - b.1) * maxScatterSamples / total
      let r := seriesPositions draw total (k + 1) bs
      (pySorted (draw k (b.2 - b.1) n) :: r.1, r.2)
    else
      let r := seriesPositions draw total k bs
      (List.range (b.2 - b.1) :: r.1, r.2)

/-- `zip(cNm[:-1], cNm[1:])`. -/
def seriesBounds (x : Idx) : List (Nat × Nat) := x.cNm.dropLast.zip x.cNm.tail

/-- MatchUpVis.py L164-190 `get_i_musamples`; `none` is `None` (no match-up). -/
def getPositions [Sub α] (draw : Nat → Nat → Nat → List Nat) : VisM α (Option (List (List Nat))) := fun v =>
  match v.ms with
  | none => (.ok v.positions, v)
  | some _ =>
    (do
      let p ← memo (·.positions) (fun b v => { v with positions := some b }) (do
        let all ← getKresNomNom
        let ms ← theMatchUp .attributeError
        fun v =>
          let r := seriesPositions draw all.length v.draws (seriesBounds ms.mu.idx)
          (.ok r.1, { v with draws := r.2 }))
      pure (some p)) v

/-- MatchUpVis.py L192-198 `get_musamples_total`. -/
def getTotal : VisM α (Option Nat) := fun v =>
  match v.total, v.positions with
  | some n, _ => (.ok (some n), v)
  | none, none => (.ok none, v)
  | none, some p => (.ok (some (p.map List.length).sum), { v with total := some (p.map List.length).sum })

/-- MatchUpVis.py L200-206 `get_mu_total`. -/
def getMuTotal : VisM α (Option Nat) := fun v =>
  match v.muTotal, v.ms with
  | some n, _ => (.ok (some n), v)
  | none, none => (.ok none, v)
  | none, some ms =>
    match pyGet ms.mu.idx.cNm (ms.mu.idx.cNm.length - 1) with
    | .ok n => (.ok (some n), { v with muTotal := some n })
    | .error e => (.error e, v)

/-- The names of the two sensors of every series, joined (MatchUpVis.py L212-216, L225-229). -/
def pairNames (x : Idx) (between : String) : Py (List String) :=
  (List.range x.Nm.length).mapM fun i => do
    let p ← pyGet x.Im i
    let s1 ← pyGet x.sensors p.1
    let s2 ← pyGet x.sensors p.2
    pure (s1 ++ between ++ s2)

/-- MatchUpVis.py L208-219 `get_mu_labels`. (The attribute is a list that grows during the loop; the loop does not fail for a match-up opened by the reader.) -/
def getLabels : VisM α (List String) :=
  memo (·.labels) (fun b v => { v with labels := some b }) do
    let ms ← theMatchUp .valueError
    .lift (pairNames ms.mu.idx " - ")

/-- MatchUpVis.py L221-232 `get_mu_fname_suffix`. -/
def getSuffixes : VisM α (List String) :=
  memo (·.suffixes) (fun b v => { v with suffixes := some b }) do
    let ms ← theMatchUp .valueError
    .lift (pairNames ms.mu.idx "_")

/-- MatchUpVis.py L234-240 `musample_values` on an array. -/
def pickSamples {β : Type} (x : Idx) (pos : List (List Nat)) (vals : List β) : Py (List (List β)) :=
  ((seriesBounds x).zip pos).mapM fun bp => bp.2.mapM (pyGet (slice vals bp.1.1 bp.1.2))

/-- MatchUpVis.py L234-240 `musample_values`; the argument may be an exception that was returned as a value, and cannot be indexed with an array. -/
def musampleValues [Sub α] {β : Type} (draw : Nat → Nat → Nat → List Nat) (vals : Option (List β)) : VisM α (List (List β)) := do
  let pos ← getPositions draw
  let ms ← theMatchUp .attributeError
  match pos, vals with
  | some pos, some l => .lift (pickSamples ms.mu.idx pos l)
  | _, _ => .lift (.error .typeError)

/-- `get_L1_nom_musamples` and its like (MatchUpVis.py L144-157, HarmonisationVis.py L126-139, L147-150). -/
def getSamples [Zero α] [Sub α] (draw : Nat → Nat → Nat → List Nat) (q : Quantity) : VisM α (List (List α)) :=
  memo (·.samples q) (fun b v => { v with samples := Function.update v.samples q (some b) }) do
    let l ← getFull q
    musampleValues draw l

/-- MatchUpVis.py L159-162 `get_times_musamples`. -/
def getTimesSamples [Sub α] (draw : Nat → Nat → Nat → List Nat) : VisM α (List (List DateTime)) :=
  memo (·.timesSamples) (fun b v => { v with timesSamples := some b }) do
    let t ← getTimes
    musampleValues draw (some t)

/-- MatchUpVis.py L242-256 `monthlymean_values` for one series: months without data are left out. `fuel` bounds the loop over the months; when it is not enough the result is `runtimeError`,
which stands for a loop that has not ended. -/
def monthlyMeans [Field α] (fuel : Nat) (vals : List α) (times : List DateTime) : Py (List (α × DateTime)) := do
  let r ← timeAverage .month vals times fuel
  match r with
  | some l => pure (l.filterMap fun e => e.1.map fun a => (a, e.2))
  | none => .error .runtimeError

/-- MatchUpVis.py L242-256 `monthlymean_values`; an exception given as values fails when it is indexed. -/
def monthlymeanValues [Field α] (fuel : Nat) (vals : Option (List α)) : VisM α (List (List (α × DateTime))) := do
  let ms ← theMatchUp .attributeError
  let t ← getTimes
  match vals with
  | some l => .lift ((seriesBounds ms.mu.idx).mapM fun b => monthlyMeans fuel (slice l b.1 b.2) (slice t b.1 b.2))
  | none => .lift (.error .typeError)

/-- `get_kres_nom_nom_monthlymean` and its like (MatchUpVis.py L159-163, HarmonisationVis.py L141-145, L152-156). The code has them for the three residuals only. -/
def getMonthly [Field α] (fuel : Nat) (q : Quantity) : VisM α (List (List (α × DateTime))) :=
  memo (·.monthly q) (fun b v => { v with monthly := Function.update v.monthly q (some b) }) do
    let l ← getFull q
    monthlymeanValues fuel l

/-- `plot_scatter` (plots.py L18-203) for lists of arrays: what is drawn, one labelled sequence of points per array. -/
def plotLists {β γ : Type} (Y : List (List β)) (X : List (List γ)) (legend : List String) : Py (List (String × List (γ × β))) := do
  let _ ← pyGet X 0
  let _ ← pyGet Y 0
  (X.zip Y).zipIdx.mapM fun p => do
    let label ← pyGet legend p.2
    if p.1.1.length = p.1.2.length then pure (label, p.1.1.zip p.1.2) else .error .valueError

/-- `plot_kres_nom_nom_scatter` and its like (MatchUpVis.py L258-266, HarmonisationVis.py L158-166, L188-196): `int(None)` is a `TypeError`. -/
def scatterPlot [Zero α] [Sub α] (draw : Nat → Nat → Nat → List Nat) (q : Quantity) : VisM α (List (String × List (DateTime × α))) := do
  let Y ← getSamples draw q
  let X ← getTimesSamples draw
  let n ← getTotal
  match n with
  | none => .lift (.error .typeError)
  | some _ =>
    let legend ← getLabels
    .lift (plotLists Y X legend)

/-- `plot_kres_nom_nom_scatter_monthlymean` and its like (MatchUpVis.py L268-276, HarmonisationVis.py L168-176, L198-206). -/
def scatterMonthly [Field α] (fuel : Nat) (q : Quantity) : VisM α (List (String × List (DateTime × α))) := do
  let r ← getMonthly fuel q
  let legend ← getLabels
  .lift (plotLists (r.map fun s => s.map (·.1)) (r.map fun s => s.map (·.2)) legend)

/-- `plot_L1_nom_v_L2_nom_scatter`, `plot_L1_harm_v_L2_harm_scatter` (MatchUpVis.py L287-297, HarmonisationVis.py L217-226): the first sensor is plotted against the second. -/
def scatterPair [Zero α] [Sub α] (draw : Nat → Nat → Nat → List Nat) (first second : Quantity) : VisM α (List (String × List (α × α))) := do
  let Y ← getSamples draw first
  let X ← getSamples draw second
  let _ ← getTotal
  let legend ← getLabels
  .lift (plotLists Y X legend)

/-- `plot_kres_nom_nom_density` and its like (MatchUpVis.py L278-285, HarmonisationVis.py L178-186, L208-215): the samples are lists, and `plot_density` begins with `x.dtype`
(plots.py L318), an `AttributeError`. -/
def density [Zero α] [Sub α] (draw : Nat → Nat → Nat → List Nat) (q : Quantity) : VisM α Unit := do
  let _ ← getSamples draw q
  let _ ← getTimesSamples draw
  let _ ← getMuTotal
  .lift (.error .attributeError)

/-- The calls a user can make (the plots over binned variables are in Model/Binned). -/
inductive VisCall
  | full (q : Quantity) | samples (q : Quantity) | monthly (q : Quantity) | times | timesSamples | positions | total | muTotal | labels | suffixes
  | scatter (q : Quantity) | scatterMonthly (q : Quantity) | scatterNominal | scatterHarmonised | density (q : Quantity)
  deriving DecidableEq, Repr

/-- What a call returns or draws. -/
inductive VisOut (α : Type)
  | values (l : Option (List α)) | samples (l : List (List α)) | monthly (l : List (List (α × DateTime))) | times (l : List DateTime) | timesSamples (l : List (List DateTime))
  | positions (l : Option (List (List Nat))) | number (n : Option Nat) | strings (l : List String) | dated (l : List (String × List (DateTime × α)))
  | pairs (l : List (String × List (α × α))) | nothing

/-- Carrying out a call. -/
def VisCall.exec [Field α] (draw : Nat → Nat → Nat → List Nat) (fuel : Nat) : VisCall → VisM α (VisOut α)
  | .full q => do let x ← getFull q; pure (.values x)
  | .samples q => do let x ← getSamples draw q; pure (.samples x)
  | .monthly q => do let x ← getMonthly fuel q; pure (.monthly x)
  | .times => do let x ← getTimes; pure (.times x)
  | .timesSamples => do let x ← getTimesSamples draw; pure (.timesSamples x)
  | .positions => do let x ← getPositions draw; pure (.positions x)
  | .total => do let x ← getTotal; pure (.number x)
  | .muTotal => do let x ← getMuTotal; pure (.number x)
  | .labels => do let x ← getLabels; pure (.strings x)
  | .suffixes => do let x ← getSuffixes; pure (.strings x)
  | .scatter q => do let x ← Verif.scatterPlot draw q; pure (.dated x)
  | .scatterMonthly q => do let x ← Verif.scatterMonthly fuel q; pure (.dated x)
  | .scatterNominal => do let x ← scatterPair draw .L1_nom .L2_nom; pure (.pairs x)
  | .scatterHarmonised => do let x ← scatterPair draw .L1_harm .L2_harm; pure (.pairs x)
  | .density q => do let _ ← Verif.density draw q; pure .nothing

/-- The state of the object after a history of calls, whatever they returned or raised. -/
def Vis.after [Field α] (draw : Nat → Nat → Nat → List Nat) (fuel : Nat) (v : Vis α) (calls : List VisCall) : Vis α :=
  calls.foldl (fun v c => (c.exec draw fuel v).2) v

/-- HarmonisationPlottingOp.py L142-163: the calls made by `run`, up to the plots over binned variables; the first exception ends the run. -/
def plottingRunCalls : List VisCall :=
  [.samples .kres_nom_nom, .samples .kres_harm_harm, .scatter .kres_nom_nom, .scatterMonthly .kres_nom_nom, .scatter .kres_harm_harm, .scatterMonthly .kres_harm_harm,
   .scatter .kres_nom_harm, .scatterMonthly .kres_nom_harm, .scatterNominal, .scatterHarmonised]

end Verif
