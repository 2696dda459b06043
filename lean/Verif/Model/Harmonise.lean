import Verif.Model.Sample
import Verif.Model.PC
import Verif.Model.Result
/-
Model of a whole harmonisation: `harmonisationProcessing/harmonisation_eiv_pc/HarmonisationEIVPC.py`, `harmonisationProcessing/harmonisation_eiv/HarmonisationEIV.py`,
`HarmonisationOp.run` (`tools/HarmonisationOp.py` L70-145) and `tools/full_eiv_solver.py`, putting together the models of the reader, the sampling, the
transformation, the preconditioner, the Gauss-Newton solver and the result files.

Printing and timing are not modelled.  The tolerances handed to `HarmonisationOp.run` are not used by it (they are not passed on), nor is `return_covariance`.
-/
set_option autoImplicit false
namespace Verif
variable {α δ : Type}

/-- `{}`: the dictionary of a new object. (An entry that is not there is a `KeyError`; here the tables are empty. Nothing reads them.) -/
def Idx.empty : Idx := { Nm := [], cNm := [], Im := [], sensors := [], sensor_ms := [], n_sensor := [], n_mu := [], n_cov := [], N_var := [], idx := [] }

/-- The object returned by `Sample2Ind.run` (Sample2Ind.py L120-267), a new `MatchUp` (MatchUp.py L130-160) without W and u matrices, with `_original_idx` empty, with
uncertainties of type 1 (which have no `uS_i`), without additional data. -/
def SampledMatchUp.toMatchUp (r : SampledMatchUp α δ) : MatchUp α δ :=
  { idx := r.idx
    original_idx := Idx.empty
    values := r.values
    ks := r.ks
    unck := r.unck
    unc := r.unc.map fun u => { unc := .independent u, uS_i := none }
    w_matrices := []
    u_matrices := []
    time1 := some r.time1
    time2 := some r.time2
    across_track_index1 := r.across_track_index1
    across_track_index2 := r.across_track_index2
    along_track_index1 := r.along_track_index1
    along_track_index2 := r.along_track_index2
    additional_values := none }

/-- Everything taken as given in a harmonisation: the random choice and the root mean square of the sampling, the numerical routines of the preconditioner, the two
Krylov solvers and the tolerances. -/
structure HarmRoutines (α δ : Type) where
  rnd : List Nat → Nat → List Nat
  rms : List α → Nat → α
  dateZero : δ
  pc : PCRoutines α
  pcTol : α
  lsmr : LsmrObject α δ
  minres : GN α δ → List α → Py (List α)
  tol : GNTol α
  /-- netCDF's fill value -/
  fill : α
  /-- saving a result that was read from files (the `save_pc` option together with `pc_input`) -/
  resave : OpenedOutput α → Py Unit

/-- HarmonisationEIV.py L86: the sampling factor. -/
def sampleFraction : ℚ := 1 / 10

/-- Sample2Ind.py L48: the default of `n_sample_max`. -/
def sampleMaximum : Nat := 100000

/-- HarmonisationEIV.py L86: the sample of the match-ups (Sample2Ind.py L121-124: the parameters, models, constants are those of the full data). -/
def Evaluable.sample [Zero α] (o : HarmRoutines α δ) (ms : Evaluable α δ) : Py (Evaluable α δ) := do
  let s ← sample2ind o.rnd o.rms o.dateZero ms.mu sampleFraction sampleMaximum
  pure { ms with mu := s.toMatchUp }

/-- HarmonisationEIVPC.py L54-70 `run` on normalised match-ups: a result with parameters and covariance, everything else `None` (pc_algo.py L183-188). -/
def pcResult [Field α] [LinearOrder α] (o : HarmRoutines α δ) (hd : Evaluable α δ) : Py (HarmResult α) := do
  let sensors ← needKey hd.mu.idx.parameter_sensor
  let r ← (PC.init hd).run o.pc o.pcTol
  pure
    { parameter := r.1
      sensors := sensors
      covariance := some r.2.1
      cost := .missing
      dof := .missing
      pValue := .missing
      attrs := []
      vars := []
      idx := hd.mu.original_idx
      values := none
      ks := none }

/-- HarmonisationEIV.py L84-93: sample, normalise, solve. -/
def Evaluable.precondition [Field α] [LinearOrder α] (o : HarmRoutines α δ) (ms : Evaluable α δ) : Py (HarmResult α) := do
  let s ← ms.sample o
  let hd ← s.normalise
  pcResult o hd

/-- HarmonisationEIV.py L79-105: parameters and covariance of the preconditioner, computed or read from a directory, and saved if asked for (`save_pc`: directory and
file name). -/
def Evaluable.preconditioner [Field α] [LinearOrder α] (o : HarmRoutines α δ) (ms : Evaluable α δ) (pc_input : Option (Dir α × List (List Char)))
    (save_pc : Option (Dir α × List Char)) : Py (List α × List (List α)) :=
  match pc_input with
  | none => do
    let r ← ms.precondition o
    match save_pc with
    | some (d, f) => do
      let _ ← r.save o.fill d f false
      pure (r.parameter, r.covariance.getD [])
    | none => pure (r.parameter, r.covariance.getD [])
  | some (d, listing) => do
    let q ← openResult d listing true
    match save_pc with
    | some _ => do
      let _ ← o.resave q.1
      pure (q.1.parameter, q.1.covariance)
    | none => pure (q.1.parameter, q.1.covariance)

/-- HarmonisationEIV.py L116-134: the solver object, on match-ups whose parameters have been set to those of the preconditioner; with `gn_input` the match-ups are not
transformed. -/
def Evaluable.solver [Field α] (o : HarmRoutines α δ) (ms : Evaluable α δ) (V : List (List α)) (gn_input : Option (GNSaved α)) : Py (GN α δ) :=
  match gn_input with
  | none => do
    let hd ← ms.normalise
    GN.init o.pc.chol hd (some V)
  | some f => do
    let g ← GN.init o.pc.chol ms none
    let S ← o.pc.chol V
    pure { g.open f with S := S }

/-- HarmonisationEIV.py L145-155: the additional variables (in the order of assignment). -/
def sysVars (r : GNResult α) : List (String × AddVar α) :=
  match r.systematic_errors with
  | none => []
  | some e => [("systematic_errors", .num 's' e), ("systematic_error_sensors", .names 's' (r.systematic_error_sensors.getD []))]

/-- HarmonisationEIV.py L136-155: the result (`cost_p_value` is the constant 0, GN_algo.py L320). -/
def harmResult [Field α] (sensors : List String) (x : Idx) (r : GNResult α) : HarmResult α :=
  { parameter := r.a
    sensors := sensors
    covariance := some r.covariance
    cost := .num r.cost
    dof := .num (r.dof : α)
    pValue := .num 0
    attrs := []
    vars := sysVars r
    idx := x
    values := some r.values_res
    ks := some r.ks_res }

/-- HarmonisationEIV.py L56-160 `run`. `save_gn` stands for `save_directory_GNOp` being given: no covariance is computed then, and the solver is saved. -/
def harmoniseEIV [Field α] [LinearOrder α] (o : HarmRoutines α δ) (ms : Evaluable α δ) (pc_input : Option (Dir α × List (List Char)))
    (save_pc : Option (Dir α × List Char)) (gn_input : Option (GNSaved α)) (save_gn : Bool) : Py (HarmResult α × Option (GNSaved α)) := do
  let pc ← ms.preconditioner o pc_input save_pc
  let g ← Evaluable.solver o { ms with a := pc.1 } pc.2 gn_input
  let sensors ← needKey g.hd.mu.idx.parameter_sensor
  let r ← g.run o.lsmr o.minres o.tol (!save_gn)
  let saved := if save_gn then some (GN.save { g with xyza := r.state.xyza }) else none
  pure (harmResult sensors g.hd.mu.original_idx r, saved)

/-- The `software_cfg` dictionary; the two last entries may be missing (`full_eiv_solver.py` L54 leaves them out). -/
structure SoftwareCfg where
  software : String
  version : String
  tag : String
  job_id : Option String
  matchup_dataset : Option String

/-- HarmonisationOp.py L127-131. -/
def cfgAttrs (c : SoftwareCfg) : Py (List (String × AttVal α)) := do
  let j ← needKey c.job_id
  let d ← needKey c.matchup_dataset
  pure [("software", .str c.software), ("software_version", .str c.version), ("software_tag", .str c.tag), ("job_id", .str j),
        ("matchup_dataset", .str (d ++ "__"))]

/-- HarmonisationOp.py L134-136: the name of the output file. -/
def cfgName (c : SoftwareCfg) : Py (List Char) := do
  let j ← needKey c.job_id
  let d ← needKey c.matchup_dataset
  pure ("harm_" ++ c.software ++ "_" ++ c.version ++ "_" ++ c.tag ++ "_" ++ j ++ "_" ++ d ++ ".nc").toList

/-- HarmonisationOp.py L124-137: attributes added, result saved with residuals. -/
def saveHarmonisation [Zero α] (o : HarmRoutines α δ) (cfg : SoftwareCfg) (out : Dir α) (r : HarmResult α) : Py (Dir α) := do
  let attrs ← cfgAttrs cfg
  let name ← cfgName cfg
  HarmResult.save o.fill out name true { r with attrs := attrs }

/-- HarmonisationOp.py L70-145 `run` on the files `ds` of the match-up directory: the output directory afterwards. The sensor data are set after the match-ups have
been opened (L94-95). -/
def harmonisationOp [Field α] [LinearOrder α] [DecidableEq α] (env : ReadEnv α δ) (o : HarmRoutines α δ) (ds : List (Dataset α))
    (sd : SensorData α (SensorModel α δ) (AdjModel α)) (pc_input : Option (Dir α × List (List Char))) (save_pc : Option (Dir α × List Char))
    (gn_input : Option (GNSaved α)) (cfg : SoftwareCfg) (out : Dir α) : Py (Dir α) := do
  let mu ← openMatchUp env ds
  let ms ← setSensorData defaultAdjustment mu sd
  let _ ← needKey ms.mu.idx.parameter_sensor
  let r ← harmoniseEIV o ms pc_input save_pc gn_input false
  saveHarmonisation o cfg out r.1

/-- `full_eiv_solver.py` L44-72 `main`, after the command line has been read: the configuration has three entries. -/
def fullEivSolver [Field α] [LinearOrder α] [DecidableEq α] (env : ReadEnv α δ) (o : HarmRoutines α δ) (ds : List (Dataset α))
    (sd : SensorData α (SensorModel α δ) (AdjModel α)) (pc_input : Option (Dir α × List (List Char))) (save_pc : Option (Dir α × List Char))
    (gn_input : Option (GNSaved α)) (software version tag : String) (out : Dir α) : Py (Dir α) :=
  harmonisationOp env o ds sd pc_input save_pc gn_input { software := software, version := version, tag := tag, job_id := none, matchup_dataset := none } out

end Verif
