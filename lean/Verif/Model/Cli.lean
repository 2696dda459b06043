import Verif.Model.Py
/-
Model of the command line logic of `tools/common.py`: `parse_cmdline` after argparse (L79-124), `configure_logging` (L127-172), `read_parsed_cmdline` (L175-199),
`read_job_file` (L202-264), and of `SensorDataFactory.get_sensor_data` (SensorDataFactory.py L93-94). argparse itself (splitting the words of the command line into
options) is not modelled, except for its mutually exclusive group.
-/
set_option autoImplicit false
namespace Verif

/-- The parsed options (L57-100): `store` options are `None` when absent, `store_true` options are `False` when absent. -/
structure CliArgs where
  jobFile : Option String
  input : Option String
  sensor : Option String
  output : Option String
  pcInput : Option String
  savePc : Option String
  gnInput : Option String
  saveGn : Option String
  noCovariance : Bool
  verbose : Bool
  quiet : Bool
  deriving DecidableEq, Repr

/-- Python truth value of an optional string: `None` and `""` are false. -/
def truthyStr : Option String → Bool
  | none => false
  | some s => s != ""

/-- Outcome of the command line: the options, or the process ends with this status. -/
inductive Cli (β : Type) where
  | exit (status : Nat)
  | run (b : β)
  deriving DecidableEq, Repr

/-- L86-124 of `parse_cmdline`: argparse ends with status 2 when both options of the exclusive group (L88-93) are given; then the checks of L103-121. Without
`solver_options` the four preconditioner/solver options do not exist. -/
def parseCmdline (solver : Bool) (a : CliArgs) : Cli CliArgs :=
  if a.verbose && a.quiet then .exit 2
  else if truthyStr a.jobFile && (truthyStr a.input || truthyStr a.sensor || truthyStr a.output
      || (solver && (truthyStr a.savePc || truthyStr a.pcInput || truthyStr a.gnInput || truthyStr a.saveGn))) then .exit 2
  else if !truthyStr a.jobFile && !(truthyStr a.input && truthyStr a.sensor && truthyStr a.output) then .exit 2
  else .run a

/-- The `[harmonisation]` section of a job file: option name to text. -/
abbrev JobFile := List (String × String)

/-- What the command line cannot see: files and their sections, `abspath`, the registered sensor data. -/
structure CliEnv (σ : Type) where
  jobs : String → Option JobFile
  abspath : String → String
  sensors : List (String × σ)

/-- SensorDataFactory.py L93-94: a dictionary look-up. -/
def getSensorData {σ : Type} (env : CliEnv σ) (name : String) : Py σ :=
  match env.sensors.lookup name with
  | some d => .ok d
  | none => .error .keyError

/-- `config.get('harmonisation', name)`: `NoOptionError`/`NoSectionError` when missing (modelled as `KeyError`). -/
def jobGet (j : JobFile) (name : String) : Py String :=
  match j.lookup name with
  | some v => .ok v
  | none => .error .keyError

/-- The values returned by `read_parsed_cmdline` with solver options. -/
structure RunConf (σ : Type) where
  datasetDir : String
  sensorData : σ
  outputDir : String
  pcInput : Option String
  savePc : Option String
  gnInput : Option String
  saveGn : Option String
  «show» : Nat
  deriving DecidableEq, Repr

/-- L177-182: `quiet is not None` holds for `False` too. The option is passed as `some`, since `store_true` never leaves `None`. -/
def showLevel (verbose quiet : Option Bool) : Nat :=
  if quiet.isSome then 0 else if verbose.isSome then 2 else 1

/-- L202-264 `read_job_file`: `open(filename)` fails for a missing file. -/
def readJobFile {σ : Type} (env : CliEnv σ) (name : String) (level : Nat) : Py (RunConf σ) :=
  match env.jobs name with
  | none => .error .ioError
  | some j => do
    let dir ← jobGet j "dataset_dir"
    let s ← jobGet j "sensor"
    let data ← getSensorData env s
    let out ← jobGet j "output_dir"
    pure { datasetDir := env.abspath dir, sensorData := data, outputDir := env.abspath out, pcInput := none, savePc := none, gnInput := none, saveGn := none, «show» := level }

/-- L175-199 `read_parsed_cmdline`. `None` as a directory goes on (the caller fails later), modelled as `TypeError` here; so does `None` as sensor name (`KeyError`). -/
def readParsedCmdline {σ : Type} (env : CliEnv σ) (a : CliArgs) : Py (RunConf σ) :=
  let level := showLevel (some a.verbose) (some a.quiet)
  match a.jobFile with
  | some j => readJobFile env j level
  | none =>
    match a.input, a.sensor, a.output with
    | some i, some s, some o => do
      let data ← getSensorData env s
      pure { datasetDir := i, sensorData := data, outputDir := o, pcInput := a.pcInput, savePc := a.savePc, gnInput := a.gnInput, saveGn := a.saveGn, «show» := level }
    | _, none, _ => .error .keyError
    | _, _, _ => .error .typeError

/-- Python's logging levels used here. -/
def lvlDEBUG : Nat := 10
def lvlINFO : Nat := 20
def lvlWARNING : Nat := 30

/-- L136-145: level of the logger. -/
def loggerLevel (verbose quiet : Bool) : Nat := if verbose then lvlDEBUG else if quiet then lvlWARNING else lvlINFO

/-- L152-155: level of the file handler. -/
def fileLevel (quiet : Bool) : Nat := if quiet then lvlINFO else lvlDEBUG

/-- L165-170: level of the stream handler. -/
def streamLevel (verbose quiet : Bool) : Nat := if verbose then lvlDEBUG else if quiet then lvlDEBUG else lvlINFO

/-- A message reaches a handler when its level is at least that of the logger and that of the handler. -/
def onStream (verbose quiet : Bool) (level : Nat) : Bool := loggerLevel verbose quiet ≤ level && streamLevel verbose quiet ≤ level

/-- The same for the log file. -/
def onFile (verbose quiet : Bool) (level : Nat) : Bool := loggerLevel verbose quiet ≤ level && fileLevel quiet ≤ level

end Verif
