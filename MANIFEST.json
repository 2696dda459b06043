{
 "claims": [
  {
   "property": "C01",
   "status": "proved",
   "theorems": [
    "Verif.C01_blocks_complete_unique",
    "Verif.C01_same_sensor_twice_fails"
   ],
   "note": ""
  },
  {
   "property": "C02",
   "status": "proved",
   "theorems": [
    "Verif.C02_boundaries_partition"
   ],
   "note": ""
  },
  {
   "property": "C03",
   "status": "proved",
   "theorems": [
    "Verif.C03_getVariableData",
    "Verif.C03_getVariableData_absent"
   ],
   "note": ""
  },
  {
   "property": "C04",
   "status": "proved",
   "theorems": [
    "Verif.C04_sensors_and_pairs"
   ],
   "note": ""
  },
  {
   "property": "C05",
   "status": "proved",
   "theorems": [
    "Verif.C05_series_data"
   ],
   "note": ""
  },
  {
   "property": "C06",
   "status": "proved",
   "theorems": [
    "Verif.C06_track_indices"
   ],
   "note": ""
  },
  {
   "property": "C07",
   "status": "proved",
   "theorems": [
    "Verif.C07_names",
    "Verif.C07_values"
   ],
   "note": ""
  },
  {
   "property": "C08",
   "status": "proved",
   "theorems": [
    "Verif.C08_systematic_numbering"
   ],
   "note": ""
  },
  {
   "property": "C09",
   "status": "proved",
   "theorems": [
    "Verif.C09_w_u_roundtrip",
    "Verif.C09_empty_matrix_fails",
    "Verif.C09_different_rows_fail"
   ],
   "note": "matrices must be non-empty (max of the columns) and share the row count; both exclusions are shown to fail in the code"
  },
  {
   "property": "C10",
   "status": "proved",
   "theorems": [
    "Verif.C10_declared_uncertainty",
    "Verif.C10_type4_single_matchup_fails"
   ],
   "note": "row 1 of Us is what the code reads for type 4; single-match-up files fail to open"
  },
  {
   "property": "C11",
   "status": "partial",
   "theorems": [
    "Verif.C11_paths_partial",
    "Verif.C11_directory_list_not_filtered"
   ],
   "note": "false of the code for a list of directories: entries are neither filtered nor sorted"
  },
  {
   "property": "C12",
   "status": "proved",
   "theorems": [
    "Verif.C12_extraction",
    "Verif.C12_rejects",
    "Verif.C12_adjustment_key_mismatch"
   ],
   "note": "rejection also happens for an entry with adjustment_model but without sensor_adjustment_model (key mismatch in the code)"
  },
  {
   "property": "C13",
   "status": "partial",
   "theorems": [
    "Verif.C13_before_transformation_partial",
    "Verif.C13_after_transformation_fails",
    "Verif.C13_case"
   ],
   "note": "Equivalence proved for every evaluation before transformation; after Transform2NormInd.run/reverse it is false of the code (labels are not in _original_idx): proved KeyError for every such match-up."
  },
  {
   "property": "C14",
   "status": "partial",
   "theorems": [
    "Verif.C14_max_of_series_partial",
    "Verif.C14_all_series_always_none"
   ],
   "note": "false of the code: without a series number the answer is always None"
  },
  {
   "property": "C15",
   "status": "partial",
   "theorems": [
    "Verif.C15_header",
    "Verif.C15_series_entry_partial",
    "Verif.C15_last_K_row_wrong"
   ],
   "note": "false of the code: series count one too large; last K row of a series of ten or more is another series' K"
  },
  {
   "property": "C16",
   "status": "proved",
   "theorems": [
    "Verif.C16_sample_independent",
    "Verif.sampling_correct",
    "Verif.opened_wellLaid"
   ],
   "note": "positions S are those seen in the output arrays (Aligned); hypotheses: random.sample's contract, W matrices with one row per match-up"
  },
  {
   "property": "C17",
   "status": "proved",
   "theorems": [
    "Verif.C17_sample_maximal",
    "Verif.sampling_correct"
   ],
   "note": ""
  },
  {
   "property": "C18",
   "status": "proved",
   "theorems": [
    "Verif.C18_sample_limits",
    "Verif.sampling_correct"
   ],
   "note": "sampling factor in exact rational arithmetic; the code's float product could round at an integer boundary"
  },
  {
   "property": "C19",
   "status": "proved",
   "theorems": [
    "Verif.C19_sample_aligned",
    "Verif.sample2ind_spec"
   ],
   "note": ""
  },
  {
   "property": "C20",
   "status": "proved",
   "theorems": [
    "Verif.C20_sample_structure",
    "Verif.sample2ind_spec"
   ],
   "note": ""
  },
  {
   "property": "C21",
   "status": "partial",
   "theorems": [
    "Verif.C21_single_input_partial",
    "Verif.C21_factor",
    "Verif.C21_fails"
   ],
   "note": "false for genuine averages: the code's value is sqrt(n) times the propagated uncertainty (C21_factor, C21_fails)"
  },
  {
   "property": "C22",
   "status": "partial",
   "theorems": [
    "Verif.C22_sample_order_partial",
    "Verif.C22_order_lost"
   ],
   "note": "false when a series with W matrices is cut down at random (C22_order_lost)"
  },
  {
   "property": "C23",
   "status": "proved",
   "theorems": [
    "Verif.C23_blocks_restored",
    "Verif.C23_K_restored",
    "Verif.Fixture.rolling_normalisable"
   ],
   "note": "blocks: any successful run+reverse restores every type 1/2 block, whatever the other blocks; K likewise. C24_roundtrip_partial adds that both calls succeed."
  },
  {
   "property": "C24",
   "status": "partial",
   "theorems": [
    "Verif.C24_roundtrip_partial",
    "Verif.C24_exact",
    "Verif.C24_always_runs",
    "Verif.C24_fails_covered_row",
    "Verif.C24_fails_weights",
    "Verif.Fixture.rolling_normalisable",
    "Verif.Fixture.covered_transformable",
    "Verif.Fixture.rolling_transformable"
   ],
   "note": "exact characterisation: the round trip returns all values, for all values, if and only if every W matrix in use can be solved row by row (C24_exact); for other W matrices run and reverse still succeed (C24_always_runs) and change values; two counterexamples on opened files (a row covered by earlier rows; weights not summing to 1)."
  },
  {
   "property": "C25",
   "status": "proved",
   "theorems": [
    "Verif.C25_layout",
    "Verif.opened_numbered",
    "Verif.Fixture.rolling_normalisable"
   ],
   "note": "hypotheses hold for every opened match-up (opened_numbered, opened_wellLaid)"
  },
  {
   "property": "C26",
   "status": "proved",
   "theorems": [
    "Verif.C26_systematic_slots",
    "Verif.opened_numbered",
    "Verif.C27_case"
   ],
   "note": "slot of each effect, disjointness, exhaustiveness, and the value read through it for arbitrary solver arrays"
  },
  {
   "property": "C27",
   "status": "proved",
   "theorems": [
    "Verif.C27_unconvert_is_reverse",
    "Verif.C27_case"
   ],
   "note": "python and compiled un-normalisation against Transform2NormInd.reverse, all four types, any parameters appended"
  },
  {
   "property": "C28",
   "status": "proved",
   "theorems": [
    "Verif.C28_adjoint",
    "Verif.C28_adjoint_files",
    "Verif.opened_solverReady",
    "Verif.C28_case"
   ],
   "note": "for every match-up opened from files whose sizes are consistent (SolvableFiles), every estimate, every square preconditioner"
  },
  {
   "property": "C29",
   "status": "proved",
   "theorems": [
    "Verif.C29_hessian",
    "Verif.opened_solverReady",
    "Verif.C28_case"
   ],
   "note": "same hypotheses as C28"
  },
  {
   "property": "C30",
   "status": "proved",
   "theorems": [
    "Verif.C30_jacobian",
    "Verif.C30_case",
    "Verif.C30_systematic_reference_fails"
   ],
   "note": "for every smooth model that ignores track indices and times, every adjustment model, every estimate and direction; reference sensors with independent uncertainty only: with a systematic part the Jacobian leaves out a term (C30_systematic_reference_fails)"
  },
  {
   "property": "C31",
   "status": "proved",
   "theorems": [
    "Verif.C31_symmetric",
    "Verif.C31_covariance",
    "Verif.C31_solvable",
    "Verif.C31_case"
   ],
   "note": "linear solves exact, JtJ and preconditioner non-singular; C31_solvable shows the exact solver exists exactly once whenever the Jacobian has a trivial kernel"
  },
  {
   "property": "C32",
   "status": "proved",
   "theorems": [
    "Verif.C32_loop",
    "Verif.C32_no_variables",
    "Verif.C34_reported_dof_fails"
   ],
   "note": "for every linear solver and every tolerance; the concrete run is in C34_reported_dof_fails; a problem without variables never returns (C32_no_variables)"
  },
  {
   "property": "C33",
   "status": "proved",
   "theorems": [
    "Verif.C33_systematic_errors",
    "Verif.C34_reported_dof_fails"
   ],
   "note": "for every match-up opened from consistent files; the concrete run, with effects of two sensors, is in C34_reported_dof_fails"
  },
  {
   "property": "C34",
   "status": "partial",
   "theorems": [
    "Verif.C34_reported_dof_partial",
    "Verif.C34_reported_dof_fails"
   ],
   "note": "false of the code: the reported number is variables - match-ups - parameters; it is right exactly when there are twice as many variables as match-ups"
  },
  {
   "property": "C35",
   "status": "partial",
   "theorems": [
    "Verif.C35_restart_partial",
    "Verif.C35_restart_residuals",
    "Verif.C35_restart_fails"
   ],
   "note": "false of the code: K is not saved, a restarted solver uses the K of the files, not normalised; all products are restored"
  },
  {
   "property": "C36",
   "status": "partial",
   "theorems": [
    "Verif.C36_fewer_covariates_fail",
    "Verif.C36_case",
    "Verif.C28_adjoint_files",
    "Verif.C30_case"
   ],
   "note": "false of the code when a calibrated sensor has fewer covariates than another sensor; holds when only reference sensors have fewer (C28_adjoint_files; C30_case has 1 and 2)"
  },
  {
   "property": "C37",
   "status": "proved",
   "theorems": [
    "Verif.C37_positive_definite",
    "Verif.C37_cholesky",
    "Verif.Fixture.pc_runs"
   ],
   "note": "for every match-up and every mixture of uncertainty types for which calc_VK returns; concrete run in Fixture.pc_runs"
  },
  {
   "property": "C38",
   "status": "partial",
   "theorems": [
    "Verif.C38_minres",
    "Verif.C38_lsmr",
    "Verif.C38_eigenvector_fails",
    "Verif.C38_scale_fails"
   ],
   "note": "iteration limit and meaning of every code proved of MINRES and of LSMR (damp = 0, as called) for the numbers reported with it; false of the code in two ways: an eigenvector right-hand side is not recognised (C38_eigenvector_fails), code 1 of MINRES does not imply a small relative residual (C38_scale_fails)"
  },
  {
   "property": "C39",
   "status": "proved",
   "theorems": [
    "Verif.C39_output_roundtrip",
    "Verif.C39_writes",
    "Verif.C39_incomplete_fails",
    "Verif.C39_long_name_fails",
    "Verif.C39_blank_lost",
    "Verif.C39_attributes_replaced",
    "Verif.result_case",
    "Verif.result_case_hyps"
   ],
   "note": "names of more than 80 characters and incomplete results are refused; edge blanks are lost; the additional attributes are replaced when residuals are opened too"
  },
  {
   "property": "C40",
   "status": "partial",
   "theorems": [
    "Verif.C40_k_residuals_partial",
    "Verif.C40_values_lost",
    "Verif.C43_first_sensor_fails",
    "Verif.result_case",
    "Verif.result_case_values"
   ],
   "note": "K residuals proved; false of the code for the sensor-state residuals, which are never stored (C40_values_lost)"
  },
  {
   "property": "C41",
   "status": "partial",
   "theorems": [
    "Verif.C41_exclusive",
    "Verif.C41_found",
    "Verif.C41_res_in_name_fails",
    "Verif.result_case_hyps"
   ],
   "note": "proved for names without the letters res; false otherwise (C41_res_in_name_fails)"
  },
  {
   "property": "C42",
   "status": "partial",
   "theorems": [
    "Verif.C42_distinct_partial",
    "Verif.C42_same_pair_fails",
    "Verif.C42_underscore_fails"
   ],
   "note": "false of the code for two series with the same sensors, and for names with underscores"
  },
  {
   "property": "C43",
   "status": "partial",
   "theorems": [
    "Verif.C43_structure",
    "Verif.C43_first_sensor_fails",
    "Verif.result_case",
    "Verif.result_case_values"
   ],
   "note": "proved when the first sensor of the first file listed has one covariate (or there are no X residuals); with two or more the reader raises ValueError (C43_first_sensor_fails)"
  },
  {
   "property": "C44",
   "status": "partial",
   "theorems": [
    "Verif.C44_measurand_rows",
    "Verif.C44_unordered_selection_fails",
    "Verif.C44_derivatives_unavailable",
    "Verif.Fixture.models_case"
   ],
   "note": "Proved for all selections in increasing order (all, one, list); false of the code for other orders and repeated series (proved); derivatives cannot be requested (proved)."
  },
  {
   "property": "C45",
   "status": "proved",
   "theorems": [
    "Verif.C45_K_difference"
   ],
   "note": "For all increasing selections, with listed or default adjustment models."
  },
  {
   "property": "C46",
   "status": "proved",
   "theorems": [
    "Verif.C46_simulated",
    "Verif.C46_empty_fails",
    "Verif.C46_case"
   ],
   "note": "for every well-formed match-up whose series are not empty; an empty series raises ValueError (C46_empty_fails)"
  },
  {
   "property": "C47",
   "status": "partial",
   "theorems": [
    "Verif.C47_three_parameters_partial",
    "Verif.C47_smooth_for_solver",
    "Verif.C47_scaled_fails",
    "Verif.C47_uncallable",
    "Verif.C47_four_parameters_formula",
    "Verif.C47_case"
   ],
   "note": "proved of the three-parameter model; false of the code for the rescaled model (derivatives 1000 and 10^6 times too large), and the other six models cannot be called at all"
  },
  {
   "property": "C48",
   "status": "partial",
   "theorems": [
    "Verif.C48_not_temperature_partial",
    "Verif.C48_temperature_fails",
    "Verif.C48_reference_fails"
   ],
   "note": "proved for all inputs but the target temperature, whose derivative is twice the true one; the reference model returns the first match-up for all match-ups"
  },
  {
   "property": "C49",
   "status": "partial",
   "theorems": [
    "Verif.C49_second_parameter_partial",
    "Verif.C49_start_partial",
    "Verif.C49_start_fails",
    "Verif.C49_without_index_fails"
   ],
   "note": "false of the code for most inputs (C49_start_fails); proved for the second parameter, the unused covariate, and at the start parameters the space count and the first parameter"
  },
  {
   "property": "C50",
   "status": "partial",
   "theorems": [
    "Verif.C50_bins_partial",
    "Verif.C50_max_lost",
    "Verif.C50_case"
   ],
   "note": "false of the code for the default limits: the observations at the maximum are in no bin (C50_max_lost); proved for every observation strictly below the upper limit"
  },
  {
   "property": "C51",
   "status": "partial",
   "theorems": [
    "Verif.C51_periods_partial",
    "Verif.C51_boundary_lost",
    "Verif.C51_calendar",
    "Verif.C51_case"
   ],
   "note": "false of the code for observations exactly at the start of a period (C51_boundary_lost); proved for all others"
  },
  {
   "property": "C52",
   "status": "partial",
   "theorems": [
    "Verif.C52_batch",
    "Verif.C52_order",
    "Verif.C52_no_trials_fails",
    "Verif.C52_case"
   ],
   "note": "the recurrence is proved for all lists of trials of one shape; partial because the function as shipped calls get_harm_paths, which is defined nowhere, and ends with NameError first"
  },
  {
   "property": "C53",
   "status": "partial",
   "theorems": [
    "Verif.C53_small_partial",
    "Verif.C53_symmetric_partial",
    "Verif.C53_eleven_fails",
    "Verif.C53_case"
   ],
   "note": "proved for at most ten parameters, any order of files; false of the code for eleven or more: the complete set of files cannot be combined"
  },
  {
   "property": "C54",
   "status": "partial",
   "theorems": [
    "Verif.C54_accepted_sound",
    "Verif.C54_accepted_opens_partial",
    "Verif.C54_accepted_solvable_partial",
    "Verif.C54_case",
    "Verif.C54_case_opens",
    "Verif.C54_case_rejected",
    "Verif.C54_fails_pointers",
    "Verif.C54_fails_single"
   ],
   "note": "what acceptance guarantees is proved for all files; false of the code that accepted files can be opened: row pointers are never checked (C54_fails_pointers), a single match-up with type 4 is accepted (C54_fails_single); opening and a returning solver run proved when these two are excluded"
  },
  {
   "property": "C55",
   "status": "partial",
   "theorems": [
    "Verif.C55_exclusive",
    "Verif.C55_one_mode",
    "Verif.C55_exclusive_plots",
    "Verif.C55_direct",
    "Verif.C55_job",
    "Verif.C55_messages",
    "Verif.C55_solver_verbosity_fails",
    "Verif.C55_empty_job_fails",
    "Verif.C55_case"
   ],
   "note": "exclusivity, options used and message levels proved; false of the code for the solver's verbosity, which is always that of --quiet, and for an empty job file option"
  },
  {
   "property": "C56",
   "status": "proved",
   "theorems": [
    "Verif.C56_valid",
    "Verif.C56_covariance",
    "Verif.C56_roundtrip",
    "Verif.C56_sequential",
    "Verif.C56_case",
    "Verif.C56_case_hyps",
    "Verif.C56_short_scanline_fails",
    "Verif.C56_same_scanline_fails",
    "Verif.C56_refused",
    "Verif.C56_empty"
   ],
   "note": "for scan lines longer than 0.01 (shorter ones are misplaced, C56_short_scanline_fails); also the covariance, the round trip through a file, and fitness for the solver when match-ups are more than a scan line apart"
  },
  {
   "property": "C57",
   "status": "proved",
   "theorems": [
    "Verif.C57_run_returns",
    "Verif.C57_run_returns_files",
    "Verif.C58_case"
   ],
   "note": "linear solvers are arbitrary functions returning vectors of the right length; the LSMR object must hold a vector after the call"
  },
  {
   "property": "C58",
   "status": "proved",
   "theorems": [
    "Verif.C58_residuals",
    "Verif.C58_case"
   ],
   "note": "the data are those of the files for match-ups satisfying the conditions of C24 (Normalisable), and what the un-normalisation gives back otherwise; K needs non-zero uncertainties"
  },
  {
   "property": "C59",
   "status": "proved",
   "theorems": [
    "Verif.C59_residuals",
    "Verif.C59_derivative",
    "Verif.C59_limit",
    "Verif.C59_covariance",
    "Verif.C59_case",
    "Verif.C59_derivative_case"
   ],
   "note": "types 1 and 2 only (what Sample2Ind leaves are type 1); numerical routines (Cholesky, solve, least squares, QR, lstsq) are parameters with their contracts; the full column rank of J is assumed for the inverse, stationarity of the least-squares routine for the normal equations"
  },
  {
   "property": "C60",
   "status": "proved",
   "theorems": [
    "Verif.C60_covariance",
    "Verif.C60_case"
   ],
   "note": "uncertainties of type 1 only, which is what Sample2Ind leaves; with systematic effects the JT columns are wrong in general (DESIGN section 4)"
  },
  {
   "property": "C61",
   "status": "proved",
   "theorems": [
    "Verif.C61_minres",
    "Verif.C61_minres_returns",
    "Verif.C61_case",
    "Verif.C61_returns_case",
    "Verif.C61_singular_fails",
    "Verif.C61_asymmetric_reports_zero"
   ],
   "note": "symmetric matrix bounded below by the machine epsilon, exact arithmetic; singular and asymmetric operators are shown to report a residual of zero"
  },
  {
   "property": "C62",
   "status": "partial",
   "theorems": [
    "Verif.C62_lsmr",
    "Verif.C62_lsmr_residual",
    "Verif.C62_solution",
    "Verif.C62_lsmr_returns",
    "Verif.C62_never_exact",
    "Verif.C62_consistent_fails",
    "Verif.C62_case",
    "Verif.C62_solution_case",
    "Verif.C62_returns_case",
    "Verif.C62_consistent_case"
   ],
   "note": "optimality, true norms, iteration bound and least-squares solution proved for every matrix when the call returns; it returns for every right-hand side outside the range of the matrix, and returns no finite result for equations with an exact solution (C62_never_exact, C62_consistent_fails)"
  },
  {
   "property": "C63",
   "status": "partial",
   "theorems": [
    "Verif.C63_run",
    "Verif.C63_run_returns",
    "Verif.C63_case",
    "Verif.C63_stationary_start_fails",
    "Verif.C63_exact_data_fails",
    "Verif.C63_repeated_step",
    "Verif.C63_leaves_solution"
   ],
   "note": "every step, for every number of iterations, is the preconditioned LSMR vector at the estimate before it, unless the gradient there is zero; false of the code in that case: the solver object keeps its vector, so a stationary start fails (C63_stationary_start_fails, C63_exact_data_fails) and a run which reaches the minimum repeats its last step (C63_repeated_step, C63_leaves_solution)"
  },
  {
   "property": "C64",
   "status": "partial",
   "theorems": [
    "Verif.C64_output_only_partial",
    "Verif.C64_no_residuals_fails",
    "Verif.C64_preconditioner_save_fails"
   ],
   "note": "false of the code: the preconditioner result cannot be saved, and a result saved without residuals cannot be opened the way pc_input is; proved for results opened without residuals"
  },
  {
   "property": "C65",
   "status": "partial",
   "theorems": [
    "Verif.C65_failed_trials_partial",
    "Verif.C65_first_failed",
    "Verif.C65_zero_trial_dropped",
    "Verif.C65_case"
   ],
   "note": "false of the code when the first trial listed failed, or when a successful trial has all parameters zero; get_harm_paths is undefined as for C52"
  },
  {
   "property": "C66",
   "status": "partial",
   "theorems": [
    "Verif.C66_symmetric",
    "Verif.C66_positive",
    "Verif.C66_diagonal",
    "Verif.C66_std_differs",
    "Verif.C66_case"
   ],
   "note": "symmetric, positive semi-definite, diagonal = unbiased variances; false of the code: the standard deviations saved beside it divide by n, not n - 1"
  },
  {
   "property": "C67",
   "status": "proved",
   "theorems": [
    "Verif.C67_opens",
    "Verif.C54_case_opens"
   ],
   "note": "for every non-empty list of consistent readable files; concrete case in C54_case_opens"
  },
  {
   "property": "C68",
   "status": "partial",
   "theorems": [
    "Verif.C68_readable_partial",
    "Verif.C68_second_times_ignored",
    "Verif.C68_lengths_fail",
    "Verif.C68_case"
   ],
   "note": "readable, right sizes, right averages over the times of sensor 1; false of the code for sensor 2, whose matrices are built from the times of sensor 1 (C68_second_times_ignored)"
  },
  {
   "property": "C69",
   "status": "partial",
   "theorems": [
    "Verif.C69_roundtrip",
    "Verif.C69_matrices",
    "Verif.C69_additional_variables",
    "Verif.C69_additional_written",
    "Verif.C69_writer_drops_matrices",
    "Verif.C69_writer_writes_nothing",
    "Verif.C69_case",
    "Verif.C69_matrices_case"
   ],
   "note": "proved for the functions of tools/W_matrix_functions.py (a W matrix is read with as many columns as are in use; additional variables over any dimensions: C69_additional_variables); false of the code for MatchUpWriter, which forgets the W matrix variables passed to it (C69_writer_drops_matrices) and whose writeMatchUp writes nothing"
  },
  {
   "property": "C70",
   "status": "partial",
   "theorems": [
    "Verif.C70_output_is_copy",
    "Verif.C70_input_overwritten",
    "Verif.C70_sorted_partial",
    "Verif.C70_listing_order_fails",
    "Verif.C70_case"
   ],
   "note": "false of the code: the output files are plain copies (C70_output_is_copy) and the input files are overwritten instead (C70_input_overwritten); for a listing not in the order of names the K are swapped between files (C70_listing_order_fails); for a sorted listing each input file gets its own K (C70_sorted_partial)"
  },
  {
   "property": "C71",
   "status": "partial",
   "theorems": [
    "Verif.C71_radiance",
    "Verif.C71_arrays",
    "Verif.C71_refused",
    "Verif.C71_channel_numbers",
    "Verif.C71_constants",
    "Verif.C71_inverse_unavailable",
    "Verif.C71_formula_inverse",
    "Verif.C71_case"
   ],
   "note": "everything about temperature to radiance is proved (real arithmetic); false of the code for the way back: rad2temp ends with NameError for every input (C71_inverse_unavailable), although its formula is the inverse (C71_formula_inverse)"
  },
  {
   "property": "C72",
   "status": "partial",
   "theorems": [
    "Verif.C72_draw_partial",
    "Verif.C72_never_returns",
    "Verif.C72_case"
   ],
   "note": "false of the code: the positions are drawn correctly (C72_draw_partial), but run reads an attribute `form` that Uncertainty objects do not have, so it raises AttributeError for every opened match-up (TypeError without uncertainties): C72_never_returns"
  },
  {
   "property": "C73",
   "status": "proved",
   "theorems": [
    "Verif.C73_covariance",
    "Verif.C73_returns",
    "Verif.C73_case"
   ],
   "note": "real arithmetic; the Jacobian has full column rank, with lam the smallest eigenvalue, and the solver's machine precision is at most lam; returning requires right-hand sides which are not eigenvectors (see C38_eigenvector_fails)"
  },
  {
   "property": "C74",
   "status": "proved",
   "theorems": [
    "Verif.C74_default",
    "Verif.C74_same_data",
    "Verif.C74_uncertainties_ignored",
    "Verif.C74_opens",
    "Verif.C74_measurands",
    "Verif.C74_case"
   ],
   "note": "attributes which are None in the code are empty lists in the model; C74_opens assumes files consistent and optional variables of the size of the match-up"
  },
  {
   "property": "C75",
   "status": "partial",
   "theorems": [
    "Verif.C75_files_partial",
    "Verif.C75_opens",
    "Verif.C75_conversion",
    "Verif.C75_mask_limit",
    "Verif.C75_combined_too_large",
    "Verif.C75_temperature_limit_fails",
    "Verif.C75_band_ignored",
    "Verif.C75_measurands_are_temperatures",
    "Verif.C75_case"
   ],
   "note": "proved without temperature limit (C75_files_partial: six files, contents, W matrices and scan-line uncertainties; C75_opens); false of the code: with a temperature limit every run ends with KeyError (C75_temperature_limit_fails), although the mask is right (C75_mask_limit); the files with random uncertainties only hold the mean of the scan-line uncertainties, which is too large (C75_combined_too_large); nominal measurands are temperatures, not radiances (C75_measurands_are_temperatures); the band is not in the file names (C75_band_ignored). The reading of the netCDF variables is not modelled beyond the record AvhrrRaw"
  },
  {
   "property": "C76",
   "status": "partial",
   "theorems": [
    "Verif.C76_files_partial",
    "Verif.C76_opens",
    "Verif.C76_file_name",
    "Verif.C76_files_distinct",
    "Verif.C76_reads_uncertainties",
    "Verif.C76_reads_parameters",
    "Verif.C76_sizes_differ_fails",
    "Verif.C76_no_average_fails",
    "Verif.C76_same_file_fails",
    "Verif.C76_name_dropped",
    "Verif.C76_single_matchup_wrong_matrix",
    "Verif.C76_second_average_wrong",
    "Verif.C76_case",
    "Verif.C76_reads_uncertainties_case",
    "Verif.C76_reads_parameters_case"
   ],
   "note": "proved for equal numbers of match-ups, distinct files (which different pairs of numbers have: C76_files_distinct) and at least one moving average, all alike (C76_files_partial, C76_opens) and for the reading of the texts; false of the code otherwise: different numbers of match-ups are refused (C76_sizes_differ_fails) or, after a single match-up, give a W matrix of the wrong size (C76_single_matchup_wrong_matrix); no moving average is an IndexError (C76_no_average_fails); unlike moving averages get the uncertainty of the first (C76_second_average_wrong); names containing Im, Nm or atrue lose lines (C76_name_dropped). The main program calls main() without its argument and always fails; run_conversion is what is modelled. 32-bit rounding of W values is not modelled"
  },
  {
   "property": "C77",
   "status": "partial",
   "theorems": [
    "Verif.C77_uncertainty_partial",
    "Verif.C77_recent_numpy_fails",
    "Verif.C77_case"
   ],
   "note": "proved for a numpy that takes numbers that are not integers as sizes (1.11, the oldest setup.py allows); false of the code with later versions: len(V)**0.5 as size is a TypeError, so no evaluation with a covariance matrix succeeds when a model gives derivatives (C77_recent_numpy_fails). Floating-point rounding is not modelled; return_derivatives=True takes precedence and raises KeyError (C44_derivatives_unavailable)"
  },
  {
   "property": "C78",
   "status": "partial",
   "theorems": [
    "Verif.C78_names",
    "Verif.C78_channels",
    "Verif.C78_hirs_sensors",
    "Verif.C78_hirs_constants",
    "Verif.C78_decimal",
    "Verif.C78_decimal_case",
    "Verif.C78_hirs_missing",
    "Verif.C78_usable_partial",
    "Verif.C78_hirs_physical",
    "Verif.C78_extraction",
    "Verif.C78_unusable",
    "Verif.C78_37um_parameters",
    "Verif.C78_mw_last_position",
    "Verif.C78_amsub_weights",
    "Verif.C78_mw_sensors",
    "Verif.C78_case"
   ],
   "note": "names, dictionaries, extraction and HIRS constants proved (C78_channels: each channel from its own file; C78_hirs_constants: each sensor from its own line; C78_decimal: the words are read as the decimal numbers they denote); every sensor usable except: nine AVHRR names whose models cannot be called with the arguments given (TypeError, C78_unusable), the HIRS reference (C48_reference_fails); the 3.7 micron formulas do not have the number of parameters declared (C78_37um_parameters); MHS measurands at across-track position 90 use a thermometer weight as antenna correction (C78_mw_last_position); AMSU-B ignores its fourth thermometer (C78_amsub_weights)"
  },
  {
   "property": "C79",
   "status": "partial",
   "theorems": [
    "Verif.C79_first_sensor_first_partial",
    "Verif.C79_wrong_for_ever",
    "Verif.C79_plotting_run",
    "Verif.C79_replacing_parameters",
    "Verif.C79_parameters_lost",
    "Verif.C79_case"
   ],
   "note": "proved for histories in which the first call needing measurands needs those of the first sensors first (C79_first_sensor_first_partial; nominal quantities and the match-up itself for every history); false of the code for the others: get_L2_harm does not use the harmonised parameters, its values are cached for both sensors and shown for ever after (C79_wrong_for_ever), and this happens in every run of the plotting tool (C79_plotting_run). When the evaluation fails the match-up keeps the changed parameters (C79_parameters_lost)"
  },
  {
   "property": "C80",
   "status": "partial",
   "theorems": [
    "Verif.C80_same_matchups",
    "Verif.C80_at_most_10000",
    "Verif.C80_monthly_means",
    "Verif.C80_total",
    "Verif.C80_run_plots",
    "Verif.C80_no_density",
    "Verif.C80_nominal_needed"
   ],
   "note": "scatter plots, their positions and labels, monthly means and sample numbers proved for every history; false of the code: density plots are never drawn (C80_no_density: plot_density is given lists); files without nominal measurands cannot be plotted at all, although harmonised quantities need none (C80_nominal_needed); match-ups at the first instant of a month are left out of the monthly means (C51). Colours, axes and the drawing itself are not modelled; the number of samples per series is rounded down in exact arithmetic"
  },
  {
   "property": "C81",
   "status": "partial",
   "theorems": [
    "Verif.C81_covariates_partial",
    "Verif.C81_additional_partial",
    "Verif.C81_own_plot",
    "Verif.C81_legend_right",
    "Verif.C81_chosen_series",
    "Verif.C81_run",
    "Verif.C81_legend_shifted",
    "Verif.C81_error_bars",
    "Verif.C81_error_bars_wrong",
    "Verif.C81_greatest_lost",
    "Verif.C81_constant_covariate",
    "Verif.C81_first_sensor_larger",
    "Verif.C81_names_too_short",
    "Verif.C81_missing_variable",
    "Verif.C81_overwritten"
   ],
   "note": "bins, averages, centres, file names, axis labels, the legend when all second sensors have the covariate, and a whole run of the tool proved when all variables vary in all series and no first sensor has more covariates than all second sensors; false of the code: error bars of the plot of one series are all that of the first bin (C81_error_bars, C81_error_bars_wrong); match-ups with the greatest value are in no bin (C81_greatest_lost); legends are shifted when the first series lacks the covariate (C81_legend_shifted); the run fails for a constant covariate, a larger first sensor, too few names, or a variable that one file lacks (C81_constant_covariate, C81_first_sensor_larger, C81_names_too_short, C81_missing_variable); files of the same two sensors overwrite each other's plots (C81_overwritten). Drawing itself is not modelled"
  },
  {
   "property": "C82",
   "status": "partial",
   "theorems": [
    "Verif.C82_result_partial",
    "Verif.C82_returns_partial",
    "Verif.C82_preconditioner_partial",
    "Verif.C82_saved_partial",
    "Verif.C82_operator_never_finishes",
    "Verif.C82_tool_never_finishes",
    "Verif.C82_tool_cannot_save",
    "Verif.C82_save_preconditioner_fails",
    "Verif.C82_needs_ten_match_ups_per_parameter"
   ],
   "note": "for match-ups opened together with their sensor data: which match-ups the preconditioner uses and what it is, when the run returns, what it returns (iterations, estimate, residuals, cost, covariance), and that the saved result opens with the same parameters, covariance, statistics and K residuals of every file, are proved. False of the code as run by HarmonisationOp: it sets the sensor data after opening, which leaves _original_idx without the parameter labels, and the first residual computation raises KeyError, so no run of the operator or of full_eiv_solver ever finishes (C82_operator_never_finishes, C82_tool_never_finishes); full_eiv_solver's configuration lacks two entries needed for saving (C82_tool_cannot_save); a computed preconditioner cannot be saved (C82_save_preconditioner_fails); fewer than ten match-ups per parameter never finish (C82_needs_ten_match_ups_per_parameter)"
  },
  {
   "property": "C83",
   "status": "partial",
   "theorems": [
    "Verif.C83_staged_partial",
    "Verif.C83_element_partial",
    "Verif.C83_initial_partial",
    "Verif.minresObject_operatorOnly",
    "Verif.C83_time_fails",
    "Verif.C83_eleven_fails",
    "Verif.C83_new_operator_fails",
    "Verif.C83_runPC_never_finishes",
    "Verif.C83_trial_never_finishes"
   ],
   "note": "for sensor models not using times and at most ten parameters: the one-piece run returns exactly when all elements can be computed, with the same result, and the combined files give its covariance (for any linear solver that knows only the operator, proved for the MINRES of the code); an element from a saved solver equals that of the solver in memory, also as an error. False of the code otherwise: models using times see none in the solver but see them when reopened (C83_time_fails), eleven parameters cannot be combined, the operator's constructor sets none of the attributes the staged methods read, runPC unpacks seven values into two, run_mc_trial reads a missing entry. The rounding of the saved solver to single precision is not modelled."
  },
  {
   "property": "C84",
   "status": "partial",
   "theorems": [
    "Verif.C84_points_partial",
    "Verif.C84_every_sensor",
    "Verif.C84_itself",
    "Verif.C84_op",
    "Verif.C84_error_bars_fail",
    "Verif.C84_order_fails",
    "Verif.C84_recent_numpy_fails"
   ],
   "note": "with numpy 1.11: the number of series drawn (the least after which all sensors have occurred), the order of the plots and all points are proved, as are the plot left of each sensor and the absence of differences for equal calibrations. False of the code: all points carry the error bar of the first (C84_error_bars_fail), parameters are taken in the order of the result and not by its sensor labels (C84_order_fails), later numpy versions refuse the sizes (C84_recent_numpy_fails). Models are called without times and track indices."
  },
  {
   "property": "C85",
   "status": "partial",
   "theorems": [
    "Verif.C85_bound",
    "Verif.C85_attained",
    "Verif.C85_definite",
    "Verif.C85_run",
    "Verif.C85_files",
    "Verif.C85_case",
    "Verif.C85_case_averaged",
    "Verif.C85_systematic_reference_fails"
   ],
   "note": "bound, attainment, definiteness: all match-ups whose uncertainties can be normalised. Runs: exact when the first variable of reference sensors has independent errors (type 1), by orthogonality of all LSMR iterates to the directions which change no value; the files may then have any uncertainties for calibrated sensors. False of the code for a reference with systematic effects (type 2): the Jacobian leaves its systematic part out, and the reported cost exceeds the objective of the returned residuals (C85_systematic_reference_fails)."
  },
  {
   "property": "C86",
   "status": "partial",
   "theorems": [
    "Verif.C86_opens",
    "Verif.C86_reads",
    "Verif.C86_covariance",
    "Verif.C86_parameters",
    "Verif.C86_cost",
    "Verif.C86_optimum",
    "Verif.Fixture.C86_case",
    "Verif.Fixture.C86_columns_fail"
   ],
   "note": "all permutations of files in which a sensor has one number of columns; cost and optimum: files which can be harmonised and normalised. False of the code for files which disagree on the number of columns of a sensor, read without uncertainties: the first file decides, and they open (dropping a column) in one order and raise in the other (C86_columns_fail). That the iterates of a run are the same is not claimed: the stopping tests are those of another sequence of vectors."
  },
  {
   "property": "C87",
   "status": "partial",
   "theorems": [
    "Verif.C87_run",
    "Verif.C87_downhill",
    "Verif.C87_gradient",
    "Verif.C87_flat_iff",
    "Verif.C87_linear_step",
    "Verif.C87_linear_flat",
    "Verif.C87_linear_optimal",
    "Verif.C87_linear_models",
    "Verif.C62_lsmr_residual",
    "Verif.C87_case",
    "Verif.C87_overshoots",
    "Verif.C63_leaves_solution"
   ],
   "note": "all steps with non-zero gradient of all runs go downhill, whatever iteration LSMR stopped at. False of the code: the whole step is taken, and can increase the cost (C87_overshoots: 169 to more than 400 with a quadratic model); where the gradient is zero the previous step is repeated, and the cost rises (C63_leaves_solution)."
  },
  {
   "property": "C88",
   "status": "partial",
   "theorems": [
    "Verif.C88_columns",
    "Verif.C88_covariance_partial",
    "Verif.C88_minres_partial",
    "Verif.C88_derivatives",
    "Verif.C88_unique",
    "Verif.C88_case",
    "Verif.C88_systematic_reference_fails"
   ],
   "note": "derivatives of K exist and are unique for smooth models; with exact linear solutions the covariance reported is the propagated one; with MINRES the reported variances are positive and at most the propagated ones, with an error bound by the residuals. Hypotheses of C88_minres_partial are met by the object of C88_case (see C73_case for those on MINRES). False of the code when a reference has a systematic uncertainty (C88_systematic_reference_fails: 3 reported, 4 declared): the Jacobian leaves it out."
  },
  {
   "property": "C89",
   "status": "partial",
   "theorems": [
    "Verif.C89_stationary",
    "Verif.C89_converse",
    "Verif.C89_gls",
    "Verif.C89_closed_form",
    "Verif.C89_least_variance",
    "Verif.C89_affine",
    "Verif.C89_case",
    "Verif.C89_systematic_reference_fails"
   ],
   "note": "proved for smooth models whose references have random uncertainties only; false of the code when a reference has a systematic uncertainty (C89_systematic_reference_fails: the computed gradient is zero and the normal equations hold for no multipliers)."
  },
  {
   "property": "C90",
   "status": "proved",
   "theorems": [
    "Verif.C90_profile",
    "Verif.C90_contours",
    "Verif.C90_excess",
    "Verif.C90_run",
    "Verif.C90_case"
   ],
   "note": "for all models affine in values and parameters which identify the parameters; no hypothesis on the derivatives the models declare, as only the cost is involved (the covariance the code reports is C88)."
  },
  {
   "property": "C91",
   "status": "partial",
   "theorems": [
    "Verif.C91_roots",
    "Verif.C91_roots_returns",
    "Verif.C91_ill_conditioned",
    "Verif.C91_definite_pass",
    "Verif.C91_definite_answer",
    "Verif.C91_not_square",
    "Verif.C91_symmetric_pass",
    "Verif.C91_zero_polynomial",
    "Verif.C91_not_roots",
    "Verif.C91_indefinite_passes",
    "Verif.C91_unsymmetric_passes"
   ],
   "note": "proved: the list is the set of roots for every polynomial which is neither zero everywhere nor ill-conditioned by the tolerance, and the function always returns; for ill-conditioned ones every number returned is the root of a quadratic with a relative change of at most the tolerance in the constant term; definite (symmetric) operators always pass and False is returned exactly when one of the vectors proves the contrary. False of the code: for the zero polynomial only 0 is returned (C91_zero_polynomial), numbers returned for ill-conditioned quadratics are never exact roots (C91_not_roots), an indefinite operator passes for all draws (C91_indefinite_passes), and so does an unsymmetric one with small elements (C91_unsymmetric_passes)."
  },
  {
   "property": "C92",
   "status": "partial",
   "theorems": [
    "Verif.Regrid.C92_split",
    "Verif.Regrid.C92_window",
    "Verif.Regrid.C92_returns",
    "Verif.Regrid.C92_average",
    "Verif.Regrid.C92_picture",
    "Verif.Regrid.C92_constant",
    "Verif.Regrid.C92_drawn",
    "Verif.Regrid.C92_off_centre",
    "Verif.Regrid.C92_wraps",
    "Verif.Regrid.C92_zero_pixels",
    "Verif.Regrid.C92_structured_not_used",
    "Verif.Regrid.C92_zeros_left_out"
   ],
   "note": "proved: window and rest add up, each pixel in exactly one of them; windows inside the picture are the rectangle asked for, one row and column before the centre; exactly when Scan fails; the picture for windows inside it and uncertainties which are not zero; every pixel has a number. False of the code: the window is not around the centre (C92_off_centre), windows at the edge wrap to the opposite one (C92_wraps), pixels without independent uncertainty show the window's uncertainty on top (C92_zero_pixels), zero common uncertainties are left out of the mean (C92_zeros_left_out), and the structured uncertainty of the window depends on where it lies instead of on the structured uncertainties (C92_structured_not_used)."
  },
  {
   "property": "C93",
   "status": "proved",
   "theorems": [
    "Verif.C93_measured",
    "Verif.C93_K",
    "Verif.C93_propagated",
    "Verif.C93_covariance_partial",
    "Verif.C93_corresponding",
    "Verif.Fixture.C93_case",
    "Verif.C93_minres",
    "Verif.C93_minres_case",
    "Verif.C93_renumbered",
    "Verif.C93_renumbered_case",
    "Verif.C93_covariance",
    "Verif.C93_covariance_case"
   ],
   "note": "measurements and K of each match-up agree; the propagated covariance of the derivatives agrees and identifiability with it; each estimate of one order has a corresponding one in the other (C93_corresponding); at corresponding estimates, with the same preconditioner, the covariance matrices reported with the code's MINRES are equal entry by entry, whichever vectors the symmetry tests draw (C93_covariance, for all smooth models, whenever both runs return; a case in C93_covariance_case). Over the reals: floating-point rounding is not modelled. C93_covariance_partial is the earlier theorem for exact linear solves."
  },
  {
   "property": "C94",
   "status": "partial",
   "theorems": [
    "Verif.C94_K",
    "Verif.C94_covariance_partial",
    "Verif.C94_corresponding",
    "Verif.C94_cost",
    "Verif.C94_optimum",
    "Verif.C94_case",
    "Verif.C94_optimum_case",
    "Verif.C94_propagated",
    "Verif.C94_minres",
    "Verif.C94_minres_case"
   ],
   "note": "proved with exact linear solutions, at corresponding estimates (which exist, C94_corresponding), also where added files share systematic effects with the old ones; the least cost of all files is not less than that of some of them (C94_cost, C94_optimum; no linear solver involved). With the code's MINRES each variance for all files is at most the propagated one of some of them, and exceeds the reported one of these by at most the residual of their solve (C94_minres). Missing: the comparison of MINRES results without the residual; files with new sensors."
  },
  {
   "property": "C95",
   "status": "proved",
   "theorems": [
    "Verif.C95_minres_limit",
    "Verif.C95_minres",
    "Verif.C95_lsmr_limit",
    "Verif.C95_lsmr",
    "Verif.C95_minres_case",
    "Verif.C95_lsmr_case"
   ],
   "note": "exact arithmetic; MINRES: symmetric matrices bounded below by the machine epsilon (without it C61_singular_fails); LSMR without damping, any matrix"
  },
  {
   "property": "C96",
   "status": "partial",
   "theorems": [
    "Verif.C96_names",
    "Verif.C96_extremes_partial",
    "Verif.C96_first_missing",
    "Verif.C96_unknown",
    "Verif.C96_close",
    "Verif.C96_case"
   ],
   "note": "false of the code: when the first value is missing (e.g. the first file lacks the variable) both extremes are nan whatever the other values (C96_first_missing); otherwise they are the extremes of the values present. Closing is modelled for Python 2 (keys() is a list)"
  },
  {
   "property": "C97",
   "status": "proved",
   "theorems": [
    "Verif.C97_minres",
    "Verif.C97_lsmr",
    "Verif.C97_minres_order",
    "Verif.C97_lsmr_order",
    "Verif.C97_turned_case",
    "Verif.C97_order_case",
    "Verif.C97_lsmr_case"
   ],
   "note": "exact arithmetic; the vectors of the symmetry test are inputs and are renumbered too"
  }
 ]
}