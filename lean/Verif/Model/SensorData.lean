import Verif.Model.Reader
/-
Model of `MatchUpReader.extract_sensor_data` (MatchUpReader.py L575-614) and `MatchUp.setSensorData` (MatchUp.py L162-167).
-/
set_option autoImplicit false
namespace Verif

/-- One entry of the sensor data dictionary: parameter list, constant list, sensor model, and the two keys concerning the
adjustment model (L602-603 test `"adjustment_model"` but fetch `"sensor_adjustment_model"`).  `ρ` is the type of sensor
models, `σ` of adjustment models. -/
structure SensorEntry (α ρ σ : Type) where
  parameter : List α
  constant : List α
  model : ρ
  adjustment_model : Option σ := none
  sensor_adjustment_model : Option σ := none

/-- `sensor_data`: a dictionary, in the enumeration order of its keys (distinct). -/
abbrev SensorData (α ρ σ : Type) := List (String × SensorEntry α ρ σ)

/-- `sensor_data[sensor]`. -/
def SensorData.get {α ρ σ : Type} (sd : SensorData α ρ σ) (s : String) : Py (SensorEntry α ρ σ) :=
  match sd.find? (fun e => e.1 == s) with
  | some e => .ok e.2
  | none => .error .keyError

/-- The values returned by `extract_sensor_data` (L611-612), the two label lists being stored in `idx` (L608-609). -/
structure Extracted (α ρ σ : Type) where
  a : List α
  a_sensor : List String
  constant : List α
  constant_sensor : List String
  sensor_model : List ρ
  adjustment_model : List σ

/-- One step of the loop L592-598. -/
def extractStep {α ρ σ : Type} (sensors : List String) (st : (List α × List String) × (List α × List String))
    (e : String × SensorEntry α ρ σ) : (List α × List String) × (List α × List String) :=
  if e.1 ∈ sensors then
    ((st.1.1 ++ e.2.parameter, st.1.2 ++ e.2.parameter.map fun _ => e.1),
     (st.2.1 ++ e.2.constant, st.2.2 ++ e.2.constant.map fun _ => e.1))
  else st

/-- L600-606, one sensor: its model and adjustment model (`default` is `_default_adjustment_model`). -/
def extractModel {α ρ σ : Type} (default : σ) (sd : SensorData α ρ σ) (s : String) : Py (ρ × σ) := do
  let e ← sd.get s
  match e.adjustment_model with
  | some _ =>
    match e.sensor_adjustment_model with
    | some m => pure (e.model, m)
    | none => .error .keyError
  | none => pure (e.model, default)

/-- L575-614 `extract_sensor_data` (the float32 conversion of the parameters is not modelled). -/
def extractSensorData {α ρ σ : Type} (default : σ) (sd : SensorData α ρ σ) (sensors : List String) :
    Py (Extracted α ρ σ) := do
  let st := sd.foldl (extractStep sensors) (([], []), ([], []))
  let models ← sensors.mapM (extractModel default sd)
  pure { a := st.1.1, a_sensor := st.1.2, constant := st.2.1, constant_sensor := st.2.2
         sensor_model := models.map (·.1), adjustment_model := models.map (·.2) }

/-- A match-up together with its sensor data attributes. -/
structure MatchUpS (α δ ρ σ : Type) where
  mu : MatchUp α δ
  a : List α
  constant : List α
  sensor_model : List ρ
  adjustment_model : List σ

/-- The `idx` dictionary after L608-609. -/
def Idx.withSensorData {α ρ σ : Type} (x : Idx) (e : Extracted α ρ σ) : Idx :=
  { x with parameter_sensor := some e.a_sensor, constant_sensor := some e.constant_sensor }

/-- MatchUp.py L162-167 `setSensorData`: updates `idx`, not `_original_idx`. -/
def setSensorData {α δ ρ σ : Type} (default : σ) (mu : MatchUp α δ) (sd : SensorData α ρ σ) :
    Py (MatchUpS α δ ρ σ) := do
  let e ← extractSensorData default sd mu.idx.sensors
  pure { mu := { mu with idx := mu.idx.withSensorData e }, a := e.a, constant := e.constant
         sensor_model := e.sensor_model, adjustment_model := e.adjustment_model }

/-- MatchUpReader.py L66-153 `openMatchUp` with sensor data (L134-141): the data are extracted before `_original_idx` is copied
(L151), so both dictionaries carry the labels. -/
def openMatchUpWith {α δ ρ σ : Type} [Zero α] [DecidableEq α] (env : ReadEnv α δ) (default : σ) (ds : List (Dataset α))
    (sd : SensorData α ρ σ) : Py (MatchUpS α δ ρ σ) := do
  let mu ← openMatchUp env ds
  let e ← extractSensorData default sd mu.idx.sensors
  let x := mu.idx.withSensorData e
  pure { mu := { mu with idx := x, original_idx := x }, a := e.a, constant := e.constant
         sensor_model := e.sensor_model, adjustment_model := e.adjustment_model }

end Verif
