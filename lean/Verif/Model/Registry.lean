import Verif.Model.HirsCoefs
import Verif.Model.SensorModels
import Mathlib.Algebra.Order.Field.Rat
/-
Model of the sensor data shipped with the package: sensor_data/SensorDataFactory.py and the modules it collects (sensor_data/AVHRR/AVHRR_*_sensor_data.py,
sensor_data/HIRS/HIRS__Ch*_3_sensor_data.py with HIRS_config_functions.py, sensor_data/MW/MW____Ch03_3_sensor_data.py with MW_consts.py, sensor_data/test_sim/test_sim.py).
Variable labels and names, used for plotting, are left out. Numbers are exact decimals.
-/
set_option autoImplicit false
namespace Verif
variable {δ : Type}

/-- The functions imported by the modules. -/
inductive ModelName
  | ref | avhrr3 | avhrr3Scaled | avhrr4 | avhrr4Scaled | avhrr37_2 | avhrr37_2Scaled | avhrr37_3 | avhrr37_3Scaled | hirsRef | hirs3 | mw3
  deriving DecidableEq, Repr

/-- What they do. -/
noncomputable def ModelName.run : ModelName → SensorModel ℝ δ
  | .ref => refModel
  | .avhrr3 => Verif.avhrr3.call
  | .avhrr3Scaled => Verif.avhrr3Scaled.call
  | .avhrr4 => Verif.avhrr4.call
  | .avhrr4Scaled => Verif.avhrr4Scaled.call
  | .avhrr37_2 => Verif.avhrr37_2.call
  | .avhrr37_2Scaled => Verif.avhrr37_2Scaled.call
  | .avhrr37_3 => Verif.avhrr37_3.call
  | .avhrr37_3Scaled => Verif.avhrr37_3Scaled.call
  | .hirsRef => Verif.hirsRef
  | .hirs3 => hirsModel
  | .mw3 => mwModel

/-- The dictionary of one sensor: `sensor_model`, `sensor_model_variables_num`, `sensor_model_parameter`, `sensor_model_constant`. -/
structure SensorDict where
  model : ModelName
  variablesNum : Nat
  parameter : List ℚ
  constant : List ℚ
  deriving DecidableEq, Repr

/-- `SENSOR_DATA`, in the order of its keys. -/
abbrev Shipped := List (String × SensorDict)

/-- `d[key] = value` on an ordered dictionary. -/
def odSet {β : Type} (d : List (String × β)) (key : String) (x : β) : List (String × β) :=
  if d.any (fun e => e.1 == key) then d.map fun e => if e.1 == key then (key, x) else e else d ++ [(key, x)]

/-- `d[key]`. -/
def odGet {β : Type} (d : List (String × β)) (key : String) : Py β :=
  match d.find? (fun e => e.1 == key) with
  | some e => .ok e.2
  | none => .error .keyError

/-- `OrderedDict(pairs)`. -/
def orderedDict {β : Type} (l : List (String × β)) : List (String × β) := l.foldl (fun d e => odSet d e.1 e.2) []

/-- A reference sensor (e.g. AVHRR_11um_3_sensor_data.py L32-38). -/
def refDict : SensorDict := ⟨.ref, 1, [], []⟩

/-- AVHRR_*_sensor_data.py L27-49 (the twelve modules that are not `sim`): three references, and thirteen sensors with the same model and the same parameters, all zero. -/
def avhrrData (model : ModelName) (variablesNum npar : Nat) : Shipped :=
  let refs := ["aatsr", "atsr2", "atsr1"].foldl (fun d s => odSet d s refDict) []
  ["m02", "n19", "n18", "n17", "n16", "n15", "n14", "n12", "n11", "n10", "n09", "n08", "n07"].foldl (fun d s => odSet d s ⟨model, variablesNum, List.replicate npar 0, []⟩) refs

/-- AVHRR_sim_3_sensor_data.py L25-128. -/
def avhrrSim3 : Shipped :=
  let p7 : List ℚ := [901/500, -631/100000, 19/1000000]
  orderedDict [("m02", refDict), ("n19", ⟨.avhrr3, 4, [-49/20, 49/1250, 39/5000000], []⟩), ("n18", ⟨.avhrr3, 4, [1227/1000, -7/5000, 109/5000000], []⟩),
    ("n17", ⟨.avhrr3, 4, [2479/1000, -157/10000, 17/500000], []⟩), ("n16", ⟨.avhrr3, 4, [191/100, -19/2000, 3/312500], []⟩), ("n15", ⟨.avhrr3, 4, p7, []⟩),
    ("n14", ⟨.avhrr3, 4, p7, []⟩), ("n12", ⟨.avhrr3, 4, p7, []⟩), ("n11", ⟨.avhrr3, 4, p7, []⟩), ("n10", ⟨.avhrr3, 4, p7, []⟩), ("n09", ⟨.avhrr3, 4, p7, []⟩),
    ("n08", ⟨.avhrr3, 4, p7, []⟩), ("n07", ⟨.avhrr3, 4, p7, []⟩)]

/-- AVHRR_sim_4_sensor_data.py L25-128. -/
def avhrrSim4 : Shipped :=
  orderedDict [("m02", refDict), ("n19", ⟨.avhrr4, 5, [-669/20, 49/1250, 39/5000000, 27/250], []⟩), ("n18", ⟨.avhrr4, 5, [1763/100, -287/200000, 109/5000000, -57/1000], []⟩),
    ("n17", ⟨.avhrr4, 5, [-119/10, -79/5000, 17/500000, 1/20], []⟩), ("n16", ⟨.avhrr4, 5, [-356/25, -10093/1000000, 3/312500, 69/1250], []⟩),
    ("n15", ⟨.avhrr4, 5, [-691/50, -731/100000, 19/1000000, 107/2000], []⟩), ("n14", ⟨.avhrr4, 5, [-499/20, -1061/100000, 23/1000000, 937/10000], []⟩),
    ("n12", ⟨.avhrr4, 5, [-228/5, -213/100000, 7/500000, 819/5000], []⟩), ("n11", ⟨.avhrr4, 5, [-931/100, 2279/50000, 99/10000000, 2041/100000], []⟩),
    ("n10", ⟨.avhrr4, 5, [-261/25, 933/25000, 23/1000000, 293/10000], []⟩), ("n09", ⟨.avhrr4, 5, [-3441/100, -291/50000, 1/100000, 31/250], []⟩),
    ("n08", ⟨.avhrr4, 5, [-6663/50, -2063/100000, 33/2000000, 2313/5000], []⟩), ("n07", ⟨.avhrr4, 5, [-643/100, -17/400, 23/1000000, 193/5000], []⟩)]

/-! ### HIRS -/

/-- The value of a sequence of decimal digits; `none` when another character occurs. -/
def digits? (l : List Char) : Option Nat :=
  l.foldl (fun r c => r.bind fun n => if c.isDigit then some (10 * n + (c.toNat - 48)) else none) (some 0)

/-- Splits at the first character satisfying `p`, which is dropped. -/
def splitAt? (p : Char → Bool) (l : List Char) : List Char × Option (List Char) :=
  match l.dropWhile (fun c => !p c) with
  | [] => (l, none)
  | _ :: r => (l.takeWhile (fun c => !p c), some r)

/-- An unsigned decimal number such as `12`, `0.5`, `.5`. -/
def plain? (l : List Char) : Option ℚ :=
  match splitAt? (· == '.') l with
  | (i, none) => if i = [] then none else (digits? i).map fun n => (n : ℚ)
  | (i, some f) => if i = [] ∧ f = [] then none else do
    let a ← digits? i
    let b ← digits? f
    pure (a + b / 10 ^ f.length)

/-- A sign, and the rest. -/
def sign? : List Char → Bool × List Char
  | '-' :: l => (true, l)
  | '+' :: l => (false, l)
  | l => (false, l)

/-- Python `float(word)` for decimal notation, with or without exponent; other words (also `inf` and `nan`, which Python accepts) are a `ValueError`. No rounding. -/
def pyFloat (word : String) : Py ℚ :=
  let (neg, l) := sign? word.toList
  let (m, e) := splitAt? (fun c => c == 'e' || c == 'E') l
  let r : Option ℚ := do
    let x ← plain? m
    let y := if neg then -x else x
    match e with
    | none => pure y
    | some e =>
      let (eneg, d) := sign? e
      if d = [] then none
      else
        let k ← digits? d
        pure (if eneg then y / 10 ^ k else y * 10 ^ k)
  match r with
  | some x => .ok x
  | none => .error .valueError

/-- HIRS_config_functions.py L26-44 `read_coeff_data`: the first line is skipped; of every other line the first word is the sensor, the next (at most) three are its constants.
A blank line is an `IndexError`. The file is given by its lines, split at white space. -/
def readCoeffData (file : List (List String)) : Py (List (String × List ℚ)) :=
  (file.drop 1).foldlM (fun d line =>
    match line with
    | [] => .error .indexError
    | name :: rest => do
      let c ← (rest.take 3).mapM pyFloat
      pure (odSet d name c)) []

/-- HIRS_config_functions.py L66-67: the sensors. -/
def hirsSensors : List String :=
  ["ma", "mb", "n19", "n18", "n17", "n16", "n15", "n14", "n12", "n11", "n10", "n09", "n08", "n07", "n06", "tn"]

/-- HIRS_config_functions.py L46-83 `return_sensor_data` for the contents of the coefficient file. -/
def returnSensorData (file : List (List String)) : Py Shipped := do
  let coeffs ← readCoeffData file
  hirsSensors.foldlM (fun d s => do
    let c ← odGet coeffs s
    pure (odSet d s ⟨.hirs3, 5, [0, 0, 0], c⟩)) [("iasi", ⟨.hirsRef, 1, [], []⟩)]

/-! ### Microwave -/

/-- MW_consts.py L3-4, L16-17, L30-31. -/
def wAmsubT : List ℚ := [1, 1, 1, 1, 1, 0, 1]
def wMhsT : List ℚ := [2, 1, 1, 1, 1]
def constAmsub3 : List ℚ := [183310000000, 0, 1, 0]
def constMhs3 : List ℚ := [183310000000, 0, 1, 0]
def antennaCorrAmsub3 : List ℚ := List.replicate 90 1
def antennaCorrMhs3 : List ℚ := List.replicate 90 1

/-- MW____Ch03_3_sensor_data.py L32-57. -/
def amsubDict : SensorDict := ⟨.mw3, 9, [0, 0, 0], antennaCorrAmsub3 ++ wAmsubT ++ constAmsub3⟩
def mhsDict : SensorDict := ⟨.mw3, 9, [0, 0, 0], antennaCorrMhs3 ++ wMhsT ++ constMhs3⟩

/-- MW____Ch03_3_sensor_data.py L59-71. -/
def mwData : Shipped :=
  orderedDict [("18", refDict), ("A", mhsDict), ("B", mhsDict), ("19", mhsDict), ("17", amsubDict), ("16", amsubDict), ("15", amsubDict)]

/-- test_sim.py L27-50. -/
def testSim : Shipped :=
  let refs := ["0"].foldl (fun d s => odSet d s refDict) []
  ["1", "2", "3"].foldl (fun d s => odSet d s ⟨.avhrr3, 4, [0, 0, 0], []⟩) refs

/-! ### The factory -/

/-- SensorDataFactory.py L25-43, L72-90: the HIRS channels and their names. -/
def hirsChannels : List (Nat × String) :=
  [(1, "HIRS__Ch01_3"), (2, "HIRS__Ch02_3"), (3, "HIRS__Ch03_3"), (4, "HIRS__Ch04_3"), (5, "HIRS__Ch05_3"), (6, "HIRS__Ch06_3"), (7, "HIRS__Ch07_3"),
    (8, "HIRS__Ch08_3"), (9, "HIRS__Ch09_3"), (10, "HIRS__Ch10_3"), (11, "HIRS__Ch11_3"), (12, "HIRS__Ch12_3"), (13, "HIRS__Ch13_3"), (14, "HIRS__Ch14_3"),
    (15, "HIRS__Ch15_3"), (16, "HIRS__Ch16_3"), (17, "HIRS__Ch17_3"), (18, "HIRS__Ch18_3"), (19, "HIRS__Ch19_3")]

/-- SensorDataFactory.py L59-94: `SensorDataFactory()` (importing the module evaluates all dictionaries, L11-45; reading the HIRS coefficients may fail). The files of the 19 HIRS
channels are given. -/
def sensorDataFactory (coefs : List (List (List String))) : Py (List (String × Shipped)) := do
  let hirs ← hirsChannels.mapM fun c => do
      match coefs[c.1 - 1]? with
      | some f => do
        let d ← returnSensorData f
        pure (c.2, d)
      | none => .error .ioError
  pure (orderedDict
    ([("AVHRR_11um_3_rescaled", avhrrData .avhrr3Scaled 4 3), ("AVHRR_12um_3_rescaled", avhrrData .avhrr3Scaled 4 3), ("AVHRR_37um_2_rescaled", avhrrData .avhrr37_2Scaled 4 3),
      ("AVHRR_11um_3", avhrrData .avhrr3 4 3), ("AVHRR_12um_3", avhrrData .avhrr3 4 3), ("AVHRR_37um_2", avhrrData .avhrr37_2 4 3),
      ("AVHRR_11um_4_rescaled", avhrrData .avhrr4Scaled 5 4), ("AVHRR_12um_4_rescaled", avhrrData .avhrr4Scaled 5 4), ("AVHRR_37um_3_rescaled", avhrrData .avhrr37_3Scaled 5 4),
      ("AVHRR_11um_4", avhrrData .avhrr4 5 4), ("AVHRR_12um_4", avhrrData .avhrr4 5 4), ("AVHRR_37um_3", avhrrData .avhrr37_3 5 4),
      ("AVHRR_sim_3", avhrrSim3), ("AVHRR_sim_4", avhrrSim4)] ++ hirs ++ [("MW____Ch03_3", mwData), ("test_sim", testSim)]))

/-- L96-97 `get_names`. -/
def factoryNames (f : List (String × Shipped)) : List String := f.map (·.1)

/-- L99-100 `get_sensor_data`. -/
def factoryGet (f : List (String × Shipped)) (name : String) : Py Shipped := odGet f name

/-- The dictionaries as the reader takes them (`MatchUpReader.extract_sensor_data`, Model/SensorData). -/
noncomputable def Shipped.data {σ : Type} (d : Shipped) : SensorData ℝ (SensorModel ℝ δ) σ :=
  d.map fun e => (e.1, { parameter := e.2.parameter.map (fun q : ℚ => (q : ℝ)), constant := e.2.constant.map (fun q : ℚ => (q : ℝ)), model := e.2.model.run })

end Verif
