# Formal model of FIDUCEO/Harmonisation in Lean 4

## 1. What is modelled, and how

The code is Python 2 with numpy/scipy/netCDF4.  It is modelled function by function in
`lean/Verif/Model/*.lean`; every definition cites the file and lines it models.  Conventions:

* **Numbers.** float32/float64 arithmetic is replaced by exact arithmetic: a generic field, a linear ordered
  field, or `ℝ`.  Rounding, overflow, inf and (where not explicitly modelled) nan are outside the model.
  Where the code only moves data, the element type is an arbitrary type, so the theorem holds for floats too.
* **Arrays** are `List α` (or functions from `Fin n`/`Nat` for linear-algebra parts).  A slice assignment whose right-hand side
  has the wrong length is an error value, not silently truncated.
* **Exceptions** are values: `Except PyErr α` with the Python exception class.
* **External behaviour** (netCDF files, directory listings, `random.sample`, scipy sparse products, LSMR/MINRES results,
  multiprocessing) enters as parameters: a file is a structure holding its variables, a random sample is an arbitrary
  choice satisfying the library's contract, a linear solver is an arbitrary function (or an exact solve where stated).
* **Loops** are folds or structural recursion over the iterated list; `while` loops take the loop's own bound as fuel.

Modules (model file: code modelled; EIV = harmonisation_eiv/harmonisation):

| model | code |
|---|---|
| `Model/Py` | Python/numpy primitives used by the others (indexing, slices, slice assignment, truth values, exceptions) |
| `Model/Reader` | EIV/core/matchup/matchupIO/MatchUpReader.py, MatchUp.py (getters) |
| `Model/WFile` | tools/W_matrix_functions.py return_w_matrix_variables, and its use by the reader |
| `Model/Writer` | tools/W_matrix_functions.py write_input_file, append_W_to_input_file; MatchUpWriter.py |
| `Model/Paths`, `Model/SensorData` | job-file path resolution, sensor data extraction, setSensorData |
| `Model/Summary` | MatchUp.py summary text, max/min |
| `Model/Additional` | MatchUp.py L294-301 (additional names, max, min), L315-319, L411-416 (with, close) |
| `Model/Sample` | Sample2Ind.py (row selection, sampling factor, resampled object) |
| `Model/Transform` | Transform2NormInd.py (normalise, transform to independent, and reverse) |
| `Model/Measurand` | matchup_maths.py evaluate_measurand, evaluate_adjusted_measurand, evaluate_K |
| `Model/GN` | GN_algo.py (products, residual, covariance, save/restore, run), HarmonisationEIV.py run |
| `Model/PC` | pc_algo.py |
| `Model/Krylov` | pykrylov_minres.py, pykrylov_lsmr.py |
| `Model/GNKrylov` | the solver objects as GN_algo.py calls them |
| `Model/Result` | HarmonisationResult.py (writer, reader, file names) |
| `Model/Simulate` | SimulateMatchUp.py |
| `Model/Stats` | core/utils/stats.py (bin, time_average) |
| `Model/Op` | HarmonisationOp.py combination of Monte Carlo trials and covariance elements |
| `Model/SensorModels` | AVHRR, HIRS, MW sensor models and derivatives |
| `Model/Checker` | tools/harmonisation_input_checker.py |
| `Model/WGen`, `Model/MWTool` | tools/generate_w_matrices.py, tools/MW_add_W_matrices.py |
| `Model/Switches`, `Model/TrueK`, `Model/Radiance` | MatchUpReader.py switches; tools/simulation_set_true_K.py (= simulated_AVHRR.py); tools/convert_bt_to_radiance.py |
| `Model/AvhrrTool` | tools/AVHRR_to_updated_spec.py |
| `Model/Pmh` | tools/pmh2fiduceo.py L131-208, L696-800 (the functions it copies from W_matrix_functions.py and generate_w_matrices.py: Model/Writer, Model/WGen) |
| `Model/MeasurandUnc` | EIV/core/matchup/matchupToolbox/utils/matchup_maths.py L85-87, L128-147 |
| `Model/SampleRandom` | EIV/core/matchup/matchupProcessing/sample/SampleMatchUp.py L38-146 (the rest cannot be reached) |
| `Model/Registry`, `Model/HirsCoefs` | `SensorDataFactory`, all built-in sensor data modules, `HIRS_config_functions.py` and its coefficient files (copied as text, split into words) |
| `Model/Vis` | `HarmonisationVis.py`, `MatchUpVis.py` (data side), `plot_scatter`, the calls of `HarmonisationPlottingOp.run`; uncertainties are read although the tool does not (C74) |
| `Model/Binned` | `MatchUpVis.py` L102-142, L309-447, `HarmonisationVis.py` L230-250, `plot_scatter` with error bars, the end of `HarmonisationPlottingOp.run`; nothing is recorded of plots written before an exception |
| `Model/Harmonise` | `HarmonisationEIV.py` L56-160, `HarmonisationEIVPC.py` L54-70, `HarmonisationOp.py` L70-145, `full_eiv_solver.py` L44-72; printing, timing and directory creation left out |
| `Model/Staged` | `HarmonisationOp.py` L147-470 (runPC, calculate_GNOp_initial, calculate_parameter_covariance_ij, run_mc_trial); attributes of the operator are options, saved files are their content; `run_mc_trial` is modelled up to the unpacking of the result |
| `Model/Training` | training/workshop_2019/Uncertainty_Functions.py L11-45 and the picture of regridding_interactive_lecture.ipynb (Python 3); what is drawn, not the drawing |
| `Model/Numeric` | pykrylov_tools_utils.py |
| `Model/Compare` | `HarmonisationVis.py` L252-293, `HarmonisationCompPlottingOp.py` L122-171; what is drawn, not the drawing |
| `Model/Cli` | EIV/tools/common.py (command line after argparse, job file, logging levels) |

## 2. Trusted base

* Lean 4.33.0 kernel.
* Axioms: each theorem uses at most `propext`, `Classical.choice`, `Quot.sound` (checked by `#print axioms`).
  No axiom of our own, no unfinished proof, no compiled-code decision procedure.
* Mathlib lemmas (kernel checked as well).
* The tactic `kernel_rfl` (`Lemmas/KernelRfl.lean`, 10 lines of meta-code) closes an equation `a = b` with `Eq.refl a`
  without first asking the elaborator; the kernel itself checks that the two sides are definitionally equal, so nothing is
  added to the trusted base.
* The reading of /repo: the model is tied to the code only by the citations.

Not modelled at all: drawing (`plots.py` and the drawing side of `HarmonisationVis`, `MatchUpVis`, plotting tools), logging, the Fortran demo
(`harmonisation_meiv_demo`), documentation, training notebooks (except the functions of C92), performance,
memory, floating-point rounding, concurrency of the process pool.

## 3. Plan per property

| id | model | proof |
|---|---|---|
| C01, C02, C04 | `Model/Reader`: index tables built from a list of datasets | list lemmas: membership/nodup of nested comprehensions, prefix sums |
| C03 | reader's triple loop of slice assignments + `getVariableData` | invariant of the write loop: writes to distinct blocks do not interfere |
| C05, C06, C07 | per-series slice assignment + getters | prefix-sum slice lemma, induction on files |
| C08 | numbering loop | invariant: numbers are positions in the list of seen keys |
| C09 | encoder of W/u variables and slicing decoder | prefix-sum slice lemma |
| C10 | per-column uncertainty reading | as C03 |
| C11, C12 | path resolution, sensor data extraction over association lists | case analysis, filter lemmas |
| C13, C14, C15 | as coded; expected false, negation by witness plus `_partial` | evaluation |
| C16-C22 | greedy row selection, sampling, resampled object | induction over rows with the marked-column invariant |
| C23-C27 | transformation and reverse for the four uncertainty types | field arithmetic; induction over rows for W blocks |
| C28-C31 | JP product and transpose as linear maps, residual, covariance | sums and inner products, derivatives over ℝ |
| C32, C38 | loop as fuelled state machine over abstract iterates | invariants |
| C33-C36 | solver bookkeeping | list lemmas; negations where false |
| C37 | preconditioner matrix over ℝ | positive definiteness of I + Σ J Jᵀ |
| C39-C43 | result writer/reader, file-name classification | round trip; negations where false |
| C44, C45 | measurand evaluation | induction over series |
| C46 | simulated match-up | linspace bounds |
| C47-C49 | sensor models over ℝ | `HasDerivAt`; negations where false |
| C50-C53 | statistics, Monte Carlo combination, covariance assembly | induction; negations where false |
| C54, C67 | checker as a function to lists of complaints; reader | acceptance ⇒ facts about the dataset ⇒ every step of the reader succeeds; negations by witness |
| C55 | command line logic | case analysis |
| C73 | covariance with the MINRES iterates | conjugate residual recurrences give a non-negative inner product of iterate and residual; Cauchy-Schwarz for the error |
| C70 | Model/TrueK: disk as a map from paths to files | invariant of the write loop over distinct paths; C45 for the K |
| C71 | Model/Radiance over the reals, table as rationals | table positivity by kernel computation, monotonicity of exp, log inverse |
| C75 | Model/AvhrrTool: the file given as a record, the six files as data sets | dictionary lemmas for the renaming, uniqueness of the increasing list of kept rows, C56/C09 for the matrices, dot product of a rolling average for the combined uncertainties |
| C76 | Model/Pmh: the texts as lists of words, the files as data sets | induction over the pairs for both loops, scan lines of consecutive times, C09/C56 for the matrix, C67 for opening |
| C77 | Model/MeasurandUnc on top of Model/Measurand; the square root is a parameter | boolean mask = positions of the sensor's labels; quadratic form over all parameters reduces to that block; row layout from C44 |
| C72 | Model/SampleRandom, the random choice a parameter | totality of every step up to the missing attribute |
| C78 | the dictionaries of all built-in sensor data modules and the coefficient files | evaluation in the kernel of a check over all dictionaries, whose soundness is a theorem for every input; folds for the HIRS reader |
| C79 | Model/Vis: the cached attributes as a state, methods as state transformers that keep the state on exceptions | invariant over all histories of calls, indexed by which measurand was asked for first |
| C80 | Model/Vis | the same invariant; positions as a parameter (the random numbers are arbitrary within their range) |
| C81 | Model/Binned on top of Model/Vis: plots as named lists of labelled points with error bars, nan as `none` | plots of opened files characterised exactly (Lemmas/BinnedFiles); the run by the invariant of C79; failures by inversion |
| C82 | Model/Harmonise: sampling, preconditioner, transformation, solver, result files composed as in HarmonisationEIV.run and HarmonisationOp.run | results composed from C16-C20, C57-C60, C32, C39, C40; failure of the operator by following `_original_idx` through the transformation |
| C83 | Model/Staged: the staged methods of HarmonisationOp on a saved solver | equality of Jacobian products after reopening (C35), reader switches (C74), combination (C53), the solver run with and without covariance |
| C84 | Model/Compare: plot_compare_calibration and the operator around it | evaluation of simulated match-ups at file level (C46, C44, C77), induction on the series loop, least number of files with all sensors |
| C85 | Spec/Objective: declared covariance, weighted sum of squares; Model/GN, Model/Transform, Model/GNKrylov | the un-normalisation is a root of the declared covariance (Lemmas/Objective); the Krylov iterates are orthogonal to its kernel (Lemmas/Blind); induction on the steps of the run (C63) |
| C86 | Spec/Order: covariance in terms of files; Model/Reader, Model/GN | blocks of reordered files are renumbered (Lemmas/Order); the declared covariance is that of the files (Lemmas/OrderFiles); K file by file (Lemmas/OrderK); C85 gives bound and attainment in both orders |
| C87 | Spec/Descent; Model/GN, Model/GNKrylov | Lemmas/CR: conjugate residual recurrences on the range of the matrix; Lemmas/Descent: best vector of the Krylov space is a descent direction; C30 gives the derivative of the cost |
| C88 | Spec/Propagation; Model/GN, Model/Transform | the Jacobian in transformed coordinates is [[1, 0], [B M / u, A / u]] with M Mᵀ the declared covariance (C85's root); Lemmas/Propagation: Schur complement and the matrix inversion lemma; C30 and the right inverse of M give the derivatives of K |
| C89 | Spec/NormalEquations; Model/GN, Model/Transform | the gradient block by block from C88's Jacobian elements; an invertible preconditioner hides nothing; the multipliers are the weighted K misfits; for the converse the estimate is built from the multipliers; closed form by solving the normal equations; least variance by completing the square (Gauss-Markov) |
| C90 | Spec/Profile; Model/GN, Model/Transform | completing the squares in the errors-in-variables cost with C85's root of the declared covariance: what remains is ρᵀ Q⁻¹ ρ; then expanding around the generalised-least-squares parameters; the bound by Cauchy-Schwarz in the metric of the covariance |
| C91 | Model/Numeric, Model/Krylov | exact roots stay fixed under Newton; completing the square; an invariant of the Newton iterations for ill-conditioned quadratics; induction over the random vectors; counterexamples for all draws |
| C92 | Model/Training | invariant of the loop over the window's pixels (with Python's negative indices); counting the pixels of a rectangle; sums over pictures; counterexamples for all data |
| C93 | Spec/OrderCov, Model/GN | correspondence of blocks (C86's) carried to K, its derivatives and the covariance of K by reindexing the sums; uniqueness of derivatives (C88); C88's formula for the reported covariance; for MINRES, the normal equations act alike on the spans of the K rows of both Jacobians, whose scalar products are those of the declared covariance, so the two runs are images of one run on the span |
| C94 | Spec/MoreData, Model/GN | blocks of some of the files embedded in those of all; K does not depend on values of other files, so the derivatives restrict; generalised least squares of some of the rows is a linear estimator of all, so C89_least_variance compares the covariances |
| C95 | Model/Krylov | loops with two limits run in step up to the smaller one; the iterates are best in nested Krylov spaces (C61, C62), and the conjugate residual recurrences give the monotone error and product |
| C96 | Model/Additional | Python's max and min as folds over values of which nan compares with nothing; induction over the list; deletion loop over the attribute names |
| C97 | Model/Krylov | a change of coordinates commutes with each step of an iteration and with the start; induction over the loop |
| C74 | Model/Switches | each part of the reader shown independent of the uncertainty variables; C67 for success |
| C69 | writers of match-up files, composed with the reader | the written dataset is computed exactly, then C03, C05, C07, C09, C10, C67 apply |
| C56, C68 | rolling average W matrix construction, microwave tool | CSR matrices as lists of rows; sums over scan lines; composition with C09 |
| C57, C58 | whole `run` of the solver over arbitrary linear solvers | every step returns, shapes invariant; residuals after reversing the transformation |
| C59 | preconditioner Jacobian and loop | derivative of the residual function; loop bound |
| C60 | preconditioner matrix | variance propagation identity |
| C61, C62, C63 | MINRES, LSMR with exact arithmetic | invariants of the recurrences in Krylov spaces |
| C64 | save and reuse of a preconditioner | negation by witness, partial |
| C65, C66 | Monte Carlo statistics | list induction, sums of squares |

Properties that turn out false of the code are kept with the code's negation proved by a concrete witness, and the part that
does hold proved under a name ending in `_partial`; section 4 lists them.

## 4. Disagreements found between code and property

Each is proved in Lean where a theorem is named, and otherwise read off the code (outside the model).

Reading, summaries, paths
* C13: after the transformation `setSensorData` cannot find its keys (`KeyError`); C14/C15: see `Props/Summary`.
* C44: `evaluate_measurand` of an unordered selection of match-ups, and derivatives with key `'sensor_a'` (`KeyError`).
* `getVariableData` on transformed match-ups returns the systematic tail with the last block.
* The adjustment model needs both dictionary keys.

Sampling
* `Sample2Ind` leaves `_original_idx` empty, so `HarmonisationEIVPC` returns an empty `idx`.  It always yields type-1 uncertainties.
* Modelling assumptions: exact rationals for the sampling factor, `random.sample` by its contract, any enumeration order of sets.

Solver
* C59: the covariance of K used for the weights and for V is evaluated with the parameters of the *last trial* of the previous refinement's optimiser
  (`get_f`/`get_Ja` leave their argument in `self.xyza`), not with the estimate it returned; `PC.History` records this.
* C30: with a systematic (type 2) reference the Jacobian leaves out a term (`C30_systematic_reference_fails`); `calc_f` evaluates
  the models without track indices and times, `calc_R` with them.
* C32: a problem without variables never returns a result (`C32_no_variables`).  `run` does not return the convergence flag.
* C34: the reported degrees of freedom are variables − match-ups − parameters (`C34_reported_dof_fails`).
* C35: K is not saved; a restarted solver uses the un-normalised K of the files (`C35_restart_fails`), and with `gn_input`
  ignores `HData.a`.
* C36: a calibrated sensor with fewer covariates than another sensor fails (`C36_fewer_covariates_fail`).
* `systematic_error_sensors` is written with dtype `'S1'`; the measurand covariance branch is not modelled; an empty array of
  parameter positions raises `IndexError`.
* `HarmonisationEIV.run` ignores `save_gn` (only the unused `save_directory_GNOp` saves); `HarmonisationOp.run` never forwards
  the tolerances nor `return_covariance`, so `--no_covariance` has no effect.

Preconditioner
* `JT` column `n_sensor − 1` wraps, is shared, or raises `IndexError` when the reference is not first; two type-2 covariates of
  one sensor overwrite each other; `JK` is stale for types 3/4 (or `UnboundLocalError`); `GNAlgo()` without data cannot reach W/u;
  `LK` is evaluated at the last trial parameters.
* C64: `--save_pc` always fails (`runPC` returns `cost = None`, netCDF raises `TypeError`); `pc_input` opens residuals by default
  but `save_pc` writes none (`C64_preconditioner_save_fails`, `C64_no_residuals_fails`).

Linear solvers
* MINRES: code 4 is used for the condition number though its text says eigenvector; an eigenvector right-hand side is not
  recognised (`C38_eigenvector_fails`); `Anorm` includes ‖b‖, so code 1 does not mean a small relative residual
  (`C38_scale_fails`); a singular operator reports residual 0 (`C61_singular_fails`); a failed symmetry test reports residual 0
  and x = 0, which callers ignore (`C61_asymmetric_reports_zero`); `istop = −1` never leaves the loop; `Arnorm` is that of the
  previous iterate; `check_symmetric` reseeds the global generator; `1 + t <= 1` is modelled as `t ≤ 0`.
* LSMR: a zero gradient returns early without setting `self.x`; so a run which starts at a stationary point fails
  (`C63_stationary_start_fails`, `C63_exact_data_fails`) and a run which reaches the minimum makes its last step again and leaves it
  (`C63_repeated_step`, `C63_leaves_solution`).  Python floats raise `ZeroDivisionError` at an exact solution
  (`C62_never_exact`, `C62_consistent_fails`).

Results
* C39: names of more than 80 characters, edge blanks, incomplete results; additional attributes replaced by those of the residual
  file (`C39_attributes_replaced`).  C40: sensor-state residuals are never stored (`C40_values_lost`).  C41: an output name
  containing `res` is not found.  C42: two series of one pair overwrite each other, `_` is ambiguous.  C43: the first listed sensor
  is taken as reference (`C43_first_sensor_fails`).  `save` pads names in place; `systematic_error_sensors` is read back as a
  character matrix; re-saving an opened result with additional variables fails; `fname`/`job_id` are missing from the
  configuration of `full_eiv_solver` (`KeyError` after solving).

Statistics, Monte Carlo
* C50: `bin` drops the maximum; C51: `time_average` drops data at the start of a period.
* `get_harm_paths` is defined nowhere (`combine_mc_trials`, `get_parameters_mc`, `fullEIVsolver_covariance_analytical` end with
  `NameError`); the residual opener returns 4 values unpacked into 8; `self.open_harmonisation_output_file` and `self.save` do not
  exist on `HarmonisationOp`; `PCsolver.py`, `initialGNsolver.py` call functions `common.py` does not define.
* C66: the standard deviations divide by n, the covariance by n − 1.  C53: eleven or more parameters cannot be combined.
  `run_mc_trial` draws one scalar for all values and assigns to a slice of a string (`TypeError`).

Sensor models
* AVHRR `sensor_model_4` takes one tuple, 37_2, 37_3, 4_scaled, 37_2_scaled, 37_3_scaled take 4 arguments while 6 are passed
  (`C47_uncallable`); rescaled derivatives are 10³ and 10⁶ too large (`C47_scaled_fails`); 37 µm configurations list one parameter
  too many.  HIRS reference returns the first row for all match-ups (`C48_reference_fails`), `T_ICT` derivative doubled
  (`C48_temperature_fails`).  MW derivatives have wrong signs and factors (`C49_start_fails`) and the model needs track indices the
  solver does not pass (`C49_without_index_fails`); AMSU-B lists 7 thermometer weights while the model reads the last 5.

Checker
* Row pointers are never checked (`C54_fails_pointers`); a single match-up with type 4 is accepted but cannot be read
  (`C54_fails_single`); a type-4 mismatch with nothing assigned before raises `UnboundLocalError` (L448 tests 3 twice); `Us2` is
  never tested for negative values (`Ur2` is listed twice); no match-ups are always rejected; matrix index 0 wraps to −1; a
  matrix without columns raises `ValueError`; under Python 3 `missing_w != w_variables` would reject files without matrices.

Command line and tools
* `quiet is not None` holds for `False`: the solver's verbosity is always 0 (`C55_solver_verbosity_fails`).  An empty `--job_file`
  passes the check but is opened (`C55_empty_job_fails`).  Job files cannot set the preconditioner or solver-state options.
* Rolling averages: scan lines of 0.01 or less are misplaced by the rounding to 0.01 (`C56_short_scanline_fails`); two match-ups of
  one scan line give a matrix the solver cannot decompose (`C56_same_scanline_fails`); a numpy scalar uncertainty is a `TypeError`.
* `MatchUpWriter.write_input_file` drops the W matrix variables it is given, so a file with structured columns it wrote never opens
  (`C69_writer_drops_matrices`); `writeMatchUp` has an empty body.
* The microwave tool reads `time1` for both sensors (`C68_second_times_ignored`), which hides that the u vectors of sensor 1 are
  sized by sensor 2 (`C68_lengths_fail`); all thermometers get the uncertainty of the first.

Tools
* C70: `simulation_set_true_K.py` opens the files of the *input* directory for writing (L49), in the order of `listdir`, while K is in the order of names.
* C71: `rad2temp` tests the undefined name `temperature`; arrays with more than three dimensions get 0 instead of `nan` for missing temperatures.
* C75: `AVHRR_to_updated_spec.py` renames BT11 before the temperature limit looks it up (KeyError), compares the band (an integer) with "37", computes radiances but
  writes temperatures, and uses the mean of scan-line uncertainties as the uncertainty of the mean.
* C76: `pmh2fiduceo.py` calls `main()` without its argument (always TypeError); `Kr = full(n_mu, Kr)` overwrites the number with an array, so pairs with different numbers of match-ups
  fail; the matrix is made once from the times of the last pair; the check that all W matrices are the same uses `and` where `or` is meant.
* Not modelled, since they cannot run at all: `PCsolver.py`, `initialGNsolver.py`, `fullEIVsolver_covariance_*.py` call `read_software_cfg`, `read_job_cfg` and `get_dataset_paths`,
  which are defined nowhere (NameError).
* C77: `V.reshape((len(V)**0.5, len(V)**0.5))` passes floats as sizes (TypeError since numpy 1.12).
* C72: `SampleMatchUp.run` uses `block_unc.form`, `uncertainty_vectors` and `Uncertainty("r", …)` of an earlier version of the classes.
* C78: nine AVHRR names refer to models with fewer arguments than the callers pass; the 3.7 micron dictionaries declare one parameter more than their models have; `MW_consts` puts 90
  antenna corrections before the weights although positions go up to 90, and gives AMSU-B seven weights of which the model reads the last five.
* C79: `get_L2_harm` lacks the three lines with which `get_L1_harm` puts the harmonised parameters into the match-up; `HarmonisationPlottingOp.run` asks for `kres_harm_harm` first,
  which evaluates `L2_harm` before `L1_harm`, so that all "harmonised" plots show values of the parameters in the sensor data.
* C80: `plot_density` begins with `x.dtype` but is given lists; the `kres_*_harm` getters return a `ValueError` instead of raising it.
* C81: `plot_scatter` wraps single arrays of abscissas and ordinates into lists but not the error bars; the legend of the plot of all series is indexed by position among the series that
  have the covariate; `bin` uses half-open bins up to the greatest value.
* C82: `HarmonisationOp.run` opens the match-ups and calls `setSensorData` afterwards; this updates `idx`, not `_original_idx`, which the reverse transformation restores;
  `evaluate_K` then finds no `parameter_sensor`. `GNAlgo` works on match-ups opened together with the sensor data.
