import Verif.Model.Cli
import Verif.Lemmas.ReaderOpen
/-
Property C55: the command line.
-/
set_option autoImplicit false
namespace Verif

/-- An option given with a text that is not empty. -/
def Given (o : Option String) : Prop := ∃ s, o = some s ∧ s ≠ ""

theorem truthyStr_iff {o : Option String} : truthyStr o = true ↔ Given o := by
  cases o with
  | none => simp [truthyStr, Given]
  | some s => simp [truthyStr, Given]

/-- A job file alone. -/
def CliArgs.JobMode (a : CliArgs) : Prop :=
  Given a.jobFile ∧ ¬ Given a.input ∧ ¬ Given a.sensor ∧ ¬ Given a.output ∧ ¬ Given a.savePc ∧ ¬ Given a.pcInput ∧ ¬ Given a.gnInput ∧ ¬ Given a.saveGn

/-- Directories and sensor, without a job file. -/
def CliArgs.DirectMode (a : CliArgs) : Prop := ¬ Given a.jobFile ∧ Given a.input ∧ Given a.sensor ∧ Given a.output

/-- **C55, exclusivity.** The solver's command line is accepted exactly when it gives a job file and none of the other options, or the two directories and the sensor and
no job file, and not both verbosity options; anything else ends the process with status 2. -/
theorem C55_exclusive (a : CliArgs) : parseCmdline true a = (.run a : Cli CliArgs) ∧ (a.JobMode ∨ a.DirectMode) ∧ ¬ (a.verbose = true ∧ a.quiet = true) ∨
    parseCmdline true a = .exit 2 ∧ ¬ ((a.JobMode ∨ a.DirectMode) ∧ ¬ (a.verbose = true ∧ a.quiet = true)) := by
  unfold parseCmdline CliArgs.JobMode CliArgs.DirectMode
  simp only [← truthyStr_iff]
  cases a.verbose <;> cases a.quiet <;> cases truthyStr a.jobFile <;> cases truthyStr a.input <;> cases truthyStr a.sensor <;> cases truthyStr a.output <;>
    cases truthyStr a.savePc <;> cases truthyStr a.pcInput <;> cases truthyStr a.gnInput <;> cases truthyStr a.saveGn <;> simp

/-- The two modes exclude each other. -/
theorem C55_one_mode (a : CliArgs) : ¬ (a.JobMode ∧ a.DirectMode) := fun ⟨h1, h2⟩ => h2.1 h1.1

/-- The plotting tools' command line, which has no solver options. -/
theorem C55_exclusive_plots (a : CliArgs) : parseCmdline false a = .run a ↔
    ((Given a.jobFile ∧ ¬ Given a.input ∧ ¬ Given a.sensor ∧ ¬ Given a.output) ∨ a.DirectMode) ∧ ¬ (a.verbose = true ∧ a.quiet = true) := by
  unfold parseCmdline CliArgs.DirectMode
  simp only [← truthyStr_iff]
  cases a.verbose <;> cases a.quiet <;> cases truthyStr a.jobFile <;> cases truthyStr a.input <;> cases truthyStr a.sensor <;> cases truthyStr a.output <;> simp

variable {σ : Type}

/-- **C55, options used.** An accepted command line in the second mode, without even an empty job file option, runs with exactly the directories, options and sensor data given. -/
theorem C55_direct (env : CliEnv σ) {a : CliArgs} (h : a.DirectMode) (hj : a.jobFile = none) {n : String} {d : σ} (hn : a.sensor = some n)
    (hs : env.sensors.lookup n = some d) : ∃ c, readParsedCmdline env a = .ok c ∧ some c.datasetDir = a.input ∧ c.sensorData = d ∧ some c.outputDir = a.output ∧
      c.pcInput = a.pcInput ∧ c.savePc = a.savePc ∧ c.gnInput = a.gnInput ∧ c.saveGn = a.saveGn := by
  obtain ⟨_, ⟨i, hi, _⟩, _, ⟨o, ho, _⟩⟩ := h
  unfold readParsedCmdline
  simp only [hj, hi, hn, ho, getSensorData, hs]
  exact ⟨_, rfl, rfl, rfl, rfl, rfl, rfl, rfl, rfl⟩

/-- **C55, job file.** In the first mode the directories and the sensor data are those of the job file. -/
theorem C55_job (env : CliEnv σ) {a : CliArgs} {name dir n out : String} {j : JobFile} {d : σ} (hj : a.jobFile = some name) (hf : env.jobs name = some j)
    (h1 : j.lookup "dataset_dir" = some dir) (h2 : j.lookup "sensor" = some n) (h3 : j.lookup "output_dir" = some out) (hs : env.sensors.lookup n = some d) :
    ∃ c, readParsedCmdline env a = .ok c ∧ c.datasetDir = env.abspath dir ∧ c.sensorData = d ∧ c.outputDir = env.abspath out ∧
      c.pcInput = none ∧ c.savePc = none ∧ c.gnInput = none ∧ c.saveGn = none := by
  refine ⟨{ datasetDir := env.abspath dir, sensorData := d, outputDir := env.abspath out, pcInput := none, savePc := none, gnInput := none, saveGn := none,
            «show» := showLevel (some a.verbose) (some a.quiet) }, ?_, rfl, rfl, rfl, rfl, rfl, rfl, rfl⟩
  unfold readParsedCmdline readJobFile
  simp only [hj, hf]
  refine bind_ok.2 ⟨dir, by simp [jobGet, h1], bind_ok.2 ⟨n, by simp [jobGet, h2], bind_ok.2 ⟨d, by simp [getSensorData, hs], bind_ok.2 ⟨out, by simp [jobGet, h3], rfl⟩⟩⟩⟩

/-- **C55, verbosity of the messages.** The messages shown are those at or above the documented level, on the stream and in the file. -/
theorem C55_messages (verbose quiet : Bool) (h : ¬ (verbose = true ∧ quiet = true)) (level : Nat) :
    (onStream verbose quiet level = true ↔ (if verbose then 10 else if quiet then 30 else 20) ≤ level) ∧
    (onFile verbose quiet level = true ↔ (if verbose then 10 else if quiet then 30 else 20) ≤ level) := by
  cases verbose <;> cases quiet <;>
    simp [onStream, onFile, loggerLevel, streamLevel, fileLevel, lvlDEBUG, lvlINFO, lvlWARNING] at h ⊢ <;> omega

/-- False of the code: the verbosity of the solver is always that of `--quiet`, also without the option and with `--verbose`. -/
theorem C55_solver_verbosity_fails (env : CliEnv σ) (a : CliArgs) {c : RunConf σ} (h : readParsedCmdline env a = .ok c) : c.show = 0 := by
  unfold readParsedCmdline at h
  split at h
  · unfold readJobFile at h
    split at h
    · cases h
    · obtain ⟨_, _, h⟩ := bind_ok.1 h
      obtain ⟨_, _, h⟩ := bind_ok.1 h
      obtain ⟨_, _, h⟩ := bind_ok.1 h
      obtain ⟨_, _, h⟩ := bind_ok.1 h
      rw [← Except.ok.inj h]; rfl
  · split at h
    · obtain ⟨_, _, h⟩ := bind_ok.1 h
      rw [← Except.ok.inj h]; rfl
    · cases h
    · cases h

/-- False of the code: an empty job file option passes the check as if it were absent, but is then opened. -/
theorem C55_empty_job_fails (env : CliEnv σ) (he : env.jobs "" = none) : ∃ a : CliArgs, parseCmdline true a = .run a ∧ a.DirectMode ∧ readParsedCmdline env a = .error .ioError := by
  refine ⟨⟨some "", some "in", some "s", some "out", none, none, none, none, false, false, false⟩, by decide +kernel, ?_, ?_⟩
  · refine ⟨?_, ⟨"in", rfl, by decide +kernel⟩, ⟨"s", rfl, by decide +kernel⟩, ⟨"out", rfl, by decide +kernel⟩⟩
    rintro ⟨s, hs, hne⟩
    exact hne (Option.some.inj hs).symm
  · simp [readParsedCmdline, readJobFile, he]

/-- Both modes occur. -/
theorem C55_case : (⟨some "j", none, none, none, none, none, none, none, false, true, false⟩ : CliArgs).JobMode ∧
    (⟨none, some "in", some "s", some "out", some "pc", none, none, none, false, false, true⟩ : CliArgs).DirectMode := by
  refine ⟨⟨⟨"j", rfl, by decide +kernel⟩, ?_, ?_, ?_, ?_, ?_, ?_, ?_⟩, ?_, ⟨"in", rfl, by decide +kernel⟩, ⟨"s", rfl, by decide +kernel⟩, ⟨"out", rfl, by decide +kernel⟩⟩ <;>
    (rintro ⟨s, hs, _⟩; exact absurd hs (by simp))

end Verif
