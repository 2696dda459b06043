import Verif.Model.SensorData
/-
Model of the switches `open_uncertainty` and `open_additional_values` of `MatchUpReader.openMatchUp` (MatchUpReader.py L66-153; used by
HarmonisationOp.py L357, L425 and tools/simulation_set_true_K.py L40).
-/
set_option autoImplicit false
namespace Verif
variable {α δ : Type}

/-- L132-135: the uncertainties and matrices, or `None` (modelled by empty lists) when switched off. -/
def openUncIf (on : Bool) (enum : List Nat → List Nat) (ds : List (Dataset α)) (x : Idx) :
    Py (List (UncBlock α) × List (Option (CSR α)) × List (Option (List α))) :=
  if on then openUnc enum ds x else pure ([], [], [])

/-- L137-139: the additional values and the index dictionary with their names, or `None` and the dictionary as it was when switched off. -/
def openAdditionalIf [Zero α] [DecidableEq α] (on : Bool) (env : ReadEnv α δ) (ds : List (Dataset α)) (x : Idx) :
    Py (Option (List (List α)) × Idx) :=
  if on then do
    let add ← openAdditional env.nan env.fill (additionalNames env.enumStr ds) ds x
    pure (some add, { x with additional_values_name := some (additionalNames env.enumStr ds) })
  else pure (none, x)

/-- L66-153 `openMatchUp(.., open_uncertainty=onUnc, open_additional_values=onAdd)` on opened datasets, without sensor data. -/
def openMatchUpIf [Zero α] [DecidableEq α] (env : ReadEnv α δ) (ds : List (Dataset α)) (onUnc onAdd : Bool) : Py (MatchUp α δ) := do
  let x ← getIdx ds
  let values ← openValues ds x
  let ks ← openKs ds x
  let time1 ← openTime env.dateZero env.toDate Dataset.time1 ds x
  let time2 ← openTime env.dateZero env.toDate Dataset.time2 ds x
  let ac1 ← openOptionalIndex env.nan env.toInt "across_track_index1" ds x
  let ac2 ← openOptionalIndex env.nan env.toInt "across_track_index2" ds x
  let al1 ← openOptionalIndex env.nan env.toInt "along_track_index1" ds x
  let al2 ← openOptionalIndex env.nan env.toInt "along_track_index2" ds x
  let unc ← openUncIf onUnc env.enumNat ds x
  let unck := if onUnc then openUncK env.rss ds else []
  let add ← openAdditionalIf onAdd env ds x
  pure { idx := add.2, original_idx := add.2, values := values, ks := ks, unck := unck, unc := unc.1
         w_matrices := unc.2.1, u_matrices := unc.2.2
         time1 := some time1, time2 := some time2
         across_track_index1 := ac1, across_track_index2 := ac2
         along_track_index1 := al1, along_track_index2 := al2
         additional_values := add.1 }

/-- The same with sensor data (L145-151). -/
def openMatchUpWithIf {ρ σ : Type} [Zero α] [DecidableEq α] (env : ReadEnv α δ) (default : σ) (ds : List (Dataset α))
    (sd : SensorData α ρ σ) (onUnc onAdd : Bool) : Py (MatchUpS α δ ρ σ) := do
  let mu ← openMatchUpIf env ds onUnc onAdd
  let e ← extractSensorData default sd mu.idx.sensors
  let x := mu.idx.withSensorData e
  pure { mu := { mu with idx := x, original_idx := x }, a := e.a, constant := e.constant
         sensor_model := e.sensor_model, adjustment_model := e.adjustment_model }

end Verif
