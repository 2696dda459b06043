import Verif.Model.Harmonise
import Verif.Model.Switches
import Verif.Model.Op
/-
Model of the methods of `HarmonisationOp` (`tools/HarmonisationOp.py` L147-470) that perform a harmonisation in separate stages: the preconditioner alone (`runPC`), the
initial state of the solver (`calculate_GNOp_initial`), one element of the parameter covariance matrix from a saved solver (`calculate_parameter_covariance_ij`), one Monte
Carlo trial (`run_mc_trial`).

All of them read their input from attributes of the operator, which its constructor (L70-71) does not set. Printing is not modelled; a saved solver is modelled by what was
saved (`GNSaved`; its rounding to single precision is not modelled).
-/
set_option autoImplicit false
namespace Verif
variable {α δ : Type}

/-- The attributes of a `HarmonisationOp` read by the staged methods. `data_reader paths sensor_data open_uncertainty open_additional_values` opens match-ups;
`temp_directory` stands for the solver saved there. -/
structure StagedOp (α δ : Type) where
  data_reader : Option (List (Dataset α) → SensorData α (SensorModel α δ) (AdjModel α) → Bool → Bool → Py (Evaluable α δ))
  dataset_paths : Option (List (Dataset α))
  sensor_data_path : Option (SensorData α (SensorModel α δ) (AdjModel α))
  temp_directory : Option (GNSaved α)

/-- HarmonisationOp.py L70-71 `__init__`: nothing is set. -/
def StagedOp.new : StagedOp α δ := { data_reader := none, dataset_paths := none, sensor_data_path := none, temp_directory := none }

/-- `self.name`. -/
def needAttr {β : Type} : Option β → Py β
  | some x => .ok x
  | none => .error .attributeError

/-- HarmonisationOp.py L167-168 and L192, L248-249 and L264, L337-338 and L348, L400-401 and L424: the match-ups opened by a staged method. -/
def StagedOp.read (op : StagedOp α δ) (onAdd : Bool) : Py (Evaluable α δ) := do
  let ds ← needAttr op.dataset_paths
  let sd ← needAttr op.sensor_data_path
  let reader ← needAttr op.data_reader
  reader ds sd true onAdd

/-- `open_matchup(paths, sensor_data, open_uncertainty, open_additional_values)`, MatchUpReader.py L37-40, as the attribute `data_reader`, with attributes set. -/
def StagedOp.on [Zero α] [DecidableEq α] (env : ReadEnv α δ) (dflt : AdjModel α) (ds : List (Dataset α)) (sd : SensorData α (SensorModel α δ) (AdjModel α)) (f : Option (GNSaved α)) :
    StagedOp α δ :=
  { data_reader := some fun ds sd u v => openMatchUpWithIf env dflt ds sd u v
    dataset_paths := some ds
    sensor_data_path := some sd
    temp_directory := f }

/-- `x, y, .. = t`: the number of names must be the number of values. -/
def unpackCount (names values : Nat) : Py Unit := if names = values then .ok () else .error .valueError

/-- HarmonisationOp.py L147-234 `runPC`: parameters and covariance, before they are written to text files. All match-ups are sampled (`sf=1`, L212), pc_algo.py L188 returns
seven values, L219 unpacks two. -/
def StagedOp.runPC [Field α] [LinearOrder α] (o : HarmRoutines α δ) (op : StagedOp α δ) : Py (List α × List (List α)) := do
  let ms ← op.read true
  let _ ← needKey ms.mu.idx.parameter_sensor
  let s ← sample2ind o.rnd o.rms o.dateZero ms.mu 1 sampleMaximum
  let hd ← MatchUpS.normalise { ms with mu := s.toMatchUp }
  let r ← (PC.init hd).run o.pc o.pcTol
  let _ ← unpackCount 2 7
  pure (r.1, r.2.1)

/-- HarmonisationOp.py L236-314 `calculate_GNOp_initial`: the saved state of the solver of the normalised match-ups (without a preconditioner, L299). -/
def StagedOp.initial [Field α] (o : HarmRoutines α δ) (op : StagedOp α δ) : Py (GNSaved α) := do
  let ms ← op.read true
  let _ ← needKey ms.mu.idx.parameter_sensor
  let hd ← ms.normalise
  let g ← GN.init o.pc.chol hd none
  pure g.save

/-- HarmonisationOp.py L347-353, L423-431: the solver object reopened on match-ups opened afresh, without additional values. -/
def StagedOp.reopen [Zero α] [One α] (o : HarmRoutines α δ) (op : StagedOp α δ) : Py (GN α δ) := do
  let f ← needAttr op.temp_directory
  let ms ← op.read false
  let g ← GN.init o.pc.chol ms none
  pure (g.open f)

/-- HarmonisationOp.py L316-369 `calculate_parameter_covariance_ij`. -/
def StagedOp.covarianceIJ [Field α] (o : HarmRoutines α δ) (op : StagedOp α δ) (i j : Nat) : Py α := do
  let g ← op.reopen o
  g.covarianceIJ o.minres i j

/-- The entry `"Ia"` of the dictionary of index tables (MatchUpReader.py and MatchUp.py set no such entry). -/
def Idx.Ia (_ : Idx) : Option (List String) := none

/-- HarmonisationOp.py L388-470 `run_mc_trial`. `draw mean` stands for `normal(mean, scale=1.0)`. L437 takes one element of the array of variables where a slice is meant. -/
def StagedOp.mcTrial [Field α] [LinearOrder α] (o : HarmRoutines α δ) (draw : List α → List α) (op : StagedOp α δ) : Py (GNResult α) := do
  let g ← op.reopen o
  let N_var ← pyLast g.hd.mu.idx.idx
  let v ← pyGet g.xyza N_var
  let values := draw [v]
  let mu : MatchUp α δ := { g.hd.mu with values := values, ks := draw g.hd.mu.ks }
  let hd : Evaluable α δ := { g.hd with mu := mu }
  let g : GN α δ := { g with hd := hd, xyza := values ++ hd.a }
  let _ ← needKey hd.mu.idx.Ia
  let r ← g.run o.lsmr o.minres o.tol false
  let _ ← unpackCount 7 9
  pure r

end Verif
