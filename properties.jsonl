{"id": "C01", "title": "Opened match-ups have exactly one data block per (sensor, series, covariate)", "statement": "After opening any non-empty list of match-up files in which the two sensors of a file differ and every sensor has the same covariate count in each file, the block table lists every (sensor, match-up series, covariate) triple occurring in the files exactly once and lists nothing else.", "quantifier": "every list of files, sensor naming and covariate counts", "why_tests_cant": "Test fixtures contain two or three small files; the claim ranges over every number of files, sensors, covariates and match-ups.", "anchors": ["harmonisation_eiv/harmonisation/core/matchup/matchupIO/MatchUpReader.py:get_idx_n_sensor_from_nc_datasets,get_idx_n_mu_from_nc_datasets,get_idx_n_cov_from_nc_datasets", "harmonisation_eiv/harmonisation/core/matchup/matchupIO/MatchUpReader.py:get_block_idxs"]}
{"id": "C02", "title": "Block boundaries partition the data array", "statement": "The block boundaries of an opened match-up start at 0, never decrease, each block is exactly as long as the match-up series it belongs to, and the last boundary is the length of the data array, which is the sum over files of M*(m1+m2).", "quantifier": "every list of files", "why_tests_cant": "Test fixtures contain two or three small files; the claim ranges over every number of files, sensors, covariates and match-ups.", "anchors": ["harmonisation_eiv/harmonisation/core/matchup/matchupIO/MatchUpReader.py:get_idx_N_var_from_nc_datasets,get_idx_idxs_from_nc_datasets", "harmonisation_eiv/harmonisation/core/matchup/matchupIO/MatchUpReader.py:open_values_from_nc_datasets"]}
{"id": "C03", "title": "Reading back a variable returns the file's column", "statement": "For every file, every sensor of its pair and every covariate, asking the opened match-up for that variable, sensor name and series number returns exactly the column of the file's X1/X2 array, whatever other files were opened with it (no block overwrites another).", "quantifier": "every list of files, every sensor, series and covariate", "why_tests_cant": "Test fixtures contain two or three small files; the claim ranges over every number of files, sensors, covariates and match-ups.", "anchors": ["harmonisation_eiv/harmonisation/core/matchup/matchupIO/MatchUpReader.py:open_values_from_nc_datasets", "harmonisation_eiv/harmonisation/core/matchup/matchupIO/MatchUp.py:getVariableData"]}
{"id": "C04", "title": "Sensor list and pair indices are faithful", "statement": "The opened match-up lists each sensor once, in order of first appearance, and the pair of indices stored for each series decodes to the two sensor names of that file.", "quantifier": "every list of files", "why_tests_cant": "Test fixtures contain two or three small files; the claim ranges over every number of files, sensors, covariates and match-ups.", "anchors": ["harmonisation_eiv/harmonisation/core/matchup/matchupIO/MatchUpReader.py:get_idx_sensors_from_nc_datasets,get_idx_Im_from_nc_datasets"]}
{"id": "C05", "title": "Per-match-up data of a series is the file's data", "statement": "K values, times and K uncertainties of each series in the opened object are those of the corresponding file, in order, and the arrays have one entry per match-up in total; the K uncertainty is the root sum of squares of Kr and Ks.", "quantifier": "every list of files", "why_tests_cant": "Test fixtures contain two or three small files; the claim ranges over every number of files, sensors, covariates and match-ups.", "anchors": ["harmonisation_eiv/harmonisation/core/matchup/matchupIO/MatchUpReader.py:open_ks_from_nc_datasets,open_unck_from_nc_datasets,open_time_from_nc_datasets", "harmonisation_eiv/harmonisation/core/matchup/matchupIO/MatchUp.py:getSensorTime"]}
{"id": "C06", "title": "Track indices are absent, exact or nan and are routed to the right sensor", "statement": "A track index array is absent iff no file carries it; otherwise files that carry it contribute their values and the others nan; asking for a sensor's index returns the array of the side of the pair the sensor is on, and a sensor outside the pair is rejected.", "quantifier": "every list of files and every sensor name", "why_tests_cant": "Test fixtures contain two or three small files; the claim ranges over every number of files, sensors, covariates and match-ups.", "anchors": ["harmonisation_eiv/harmonisation/core/matchup/matchupIO/MatchUpReader.py:open_optional_index_from_nc_datasets", "harmonisation_eiv/harmonisation/core/matchup/matchupIO/MatchUp.py:getSensorAlongTrackIndex,getSensorAcrossTrackIndex"]}
{"id": "C07", "title": "Additional variables are all found and read with fill values as nan", "statement": "The additional variable names are exactly the non-standard per-match-up variables of the files, each once; asking for one of them for a series returns the file's data with fill values turned to nan, and nan everywhere if that file lacks it.", "quantifier": "every list of files and every variable name", "why_tests_cant": "Test fixtures contain two or three small files; the claim ranges over every number of files, sensors, covariates and match-ups.", "anchors": ["harmonisation_eiv/harmonisation/core/matchup/matchupIO/MatchUpReader.py:get_idx_additional_values_name_from_nc_datasets,open_additional_values_from_nc_datasets", "harmonisation_eiv/harmonisation/core/matchup/matchupIO/MatchUp.py:getAdditionalData"]}
{"id": "C08", "title": "Systematic effects are numbered once per sensor and covariate", "statement": "Blocks with a systematic error component are numbered 1..n without gaps, two blocks share a number iff they are the same covariate of the same sensor (whatever the series), and other blocks get none.", "quantifier": "every list of blocks and uncertainty types", "why_tests_cant": "Test fixtures contain two or three small files; the claim ranges over every number of files, sensors, covariates and match-ups.", "anchors": ["harmonisation_eiv/harmonisation/core/matchup/matchupIO/MatchUpReader.py:open_unc_from_nc_datasets"]}
{"id": "C09", "title": "W and u matrices survive the file format", "statement": "Writing any list of W matrices (with the same number of rows) and u vectors with the match-up file encoder and opening number k gives back matrix k: same values, columns and row pointers, with the width implied by its largest column.", "quantifier": "every list of matrices", "why_tests_cant": "Test fixtures contain two or three small files; the claim ranges over every number of files, sensors, covariates and match-ups.", "anchors": ["tools/W_matrix_functions.py:return_w_matrix_variables", "harmonisation_eiv/harmonisation/core/matchup/matchupIO/MatchUpReader.py:_open_w_matrix,_open_u_matrix"]}
{"id": "C10", "title": "Each block carries the uncertainty its file declares", "statement": "For every file, side and column, the block's uncertainty has the declared type and the declared data: Ur column (type 1), Ur and Us columns (2), the W and u matrix named by the use variables (3), those plus a systematic uncertainty (4).", "quantifier": "every list of files", "why_tests_cant": "Test fixtures contain two or three small files; the claim ranges over every number of files, sensors, covariates and match-ups.", "anchors": ["harmonisation_eiv/harmonisation/core/matchup/matchupIO/MatchUpReader.py:open_unc_from_nc_datasets,open_matrix_idxs_from_nc_datasets"]}
{"id": "C11", "title": "Match-up paths are resolved to exactly the requested .nc files", "statement": "A directory path opens exactly its .nc files in name order; a file path opens that file; a list of files opens them in order; a list of directories opens the match-up files of each; anything else opens nothing.", "quantifier": "every file system content and path argument", "why_tests_cant": "The file system content is unbounded and listing order is arbitrary.", "anchors": ["harmonisation_eiv/harmonisation/core/matchup/matchupIO/MatchUpReader.py:open_nc_datasets"]}
{"id": "C12", "title": "Sensor data extraction groups parameters by sensor", "statement": "The parameter vector is the concatenation of the parameter lists of exactly the sensors present in the match-ups, labelled with their sensor, so that selecting by label gives back each sensor's own list; models are listed in sensor order; a sensor without an entry is rejected.", "quantifier": "every sensor data table and sensor list", "why_tests_cant": "Test fixtures contain two or three small files; the claim ranges over every number of files, sensors, covariates and match-ups.", "anchors": ["harmonisation_eiv/harmonisation/core/matchup/matchupIO/MatchUpReader.py:extract_sensor_data"]}
{"id": "C13", "title": "Sensor data set after opening is seen by all later processing", "statement": "Setting sensor data on an already opened match-up is equivalent, for later transformation and evaluation, to opening the match-up with that sensor data.", "quantifier": "every match-up and sensor data", "why_tests_cant": "Depends on the history of calls and aliasing between stored index tables.", "anchors": ["harmonisation_eiv/harmonisation/core/matchup/matchupIO/MatchUp.py:setSensorData", "harmonisation_eiv/harmonisation/core/matchup/matchupIO/MatchUpReader.py:openMatchUp", "harmonisation_eiv/harmonisation/core/matchup/matchupProcessing/transform2normind/Transform2NormInd.py:reverse"]}
{"id": "C14", "title": "Maximum/minimum over all series", "statement": "Asking for the maximum (minimum) of a variable without a series number gives the extreme over all series of that sensor.", "quantifier": "every match-up", "why_tests_cant": "Needs every data content.", "anchors": ["harmonisation_eiv/harmonisation/core/matchup/matchupIO/MatchUp.py:getVariableDataMax,getVariableDataMin,getVariableData"]}
{"id": "C15", "title": "The printed summary is faithful", "statement": "The text summary reports the number of series, and for each shown match-up the K value of that series.", "quantifier": "every match-up with any number of match-ups per series", "why_tests_cant": "Needs series longer than the fixtures.", "anchors": ["harmonisation_eiv/harmonisation/core/matchup/matchupIO/MatchUp.py:__repr__"]}
{"id": "C16", "title": "Sampled match-ups are mutually independent", "statement": "For every set of W matrices the sampled match-ups of a series share no input column: no two sampled match-ups have a common non-zero column in any W matrix of the series.", "quantifier": "every set of W matrices and every random choice", "why_tests_cant": "Random choice and unbounded matrices.", "anchors": ["harmonisation_eiv/harmonisation/core/matchup/matchupProcessing/sample2ind/cython_lib_sample2ind.pyx:get_sample_idxs", "harmonisation_eiv/harmonisation/core/matchup/matchupProcessing/sample2ind/Sample2Ind.py:run"]}
{"id": "C17", "title": "Independent sampling wastes nothing", "statement": "Without truncation the sampling is maximal: every match-up left out shares an input column with an earlier selected one.", "quantifier": "every set of W matrices", "why_tests_cant": "Unbounded matrices.", "anchors": ["harmonisation_eiv/harmonisation/core/matchup/matchupProcessing/sample2ind/cython_lib_sample2ind.pyx:get_sample_idxs"]}
{"id": "C18", "title": "Samples are within limits, in range and without repeats", "statement": "The sample of each series consists of distinct valid indices, has at most the requested number of elements, and the total number never exceeds the stated maximum.", "quantifier": "every match-up, sampling fraction, maximum and random choice", "why_tests_cant": "Random choice and unbounded sizes.", "anchors": ["harmonisation_eiv/harmonisation/core/matchup/matchupProcessing/sample2ind/Sample2Ind.py:run", "harmonisation_eiv/harmonisation/core/matchup/matchupProcessing/sample2ind/cython_lib_sample2ind.pyx:get_sample_idxs"]}
{"id": "C19", "title": "Sampled data stay aligned", "statement": "In a sampled match-up all blocks of a series, its K values, K uncertainties, times and track indices are taken at the same match-up positions in the same order, and values equal the original ones at those positions.", "quantifier": "every match-up and random choice", "why_tests_cant": "Random choice and unbounded sizes.", "anchors": ["harmonisation_eiv/harmonisation/core/matchup/matchupProcessing/sample2ind/Sample2Ind.py:run"]}
{"id": "C20", "title": "Sampled structure is consistent", "statement": "The sampled object's block and series boundaries are again prefix sums of the sampled sizes and each block has as many values and uncertainties as its series has samples.", "quantifier": "every match-up and random choice", "why_tests_cant": "Unbounded sizes.", "anchors": ["harmonisation_eiv/harmonisation/core/matchup/matchupProcessing/sample2ind/Sample2Ind.py:run"]}
{"id": "C21", "title": "Averaged uncertainty of a sampled match-up", "statement": "A sampled match-up whose covariate is an average of independent inputs carries the standard uncertainty obtained by propagating the inputs' uncertainties through its W matrix row.", "quantifier": "every W row and u vector", "why_tests_cant": "Numerical identity over all weights.", "anchors": ["harmonisation_eiv/harmonisation/core/matchup/matchupProcessing/sample2ind/Sample2Ind.py:run"]}
{"id": "C22", "title": "Sample keeps match-up order", "statement": "The sampled match-ups of every series are in the original order.", "quantifier": "every random choice", "why_tests_cant": "Random choice.", "anchors": ["harmonisation_eiv/harmonisation/core/matchup/matchupProcessing/sample2ind/Sample2Ind.py:run", "harmonisation_eiv/harmonisation/core/matchup/matchupProcessing/sample2ind/cython_lib_sample2ind.pyx:get_sample_idxs"]}
{"id": "C23", "title": "Normalisation is reversible for independent and systematic blocks", "statement": "For blocks with independent or independent+systematic uncertainties and for K, transforming to normalised independent variables and back with the transformation's own reverse gives the original values whenever the uncertainties are non-zero.", "quantifier": "every match-up, value and uncertainty vector", "why_tests_cant": "All numeric contents and sizes.", "anchors": ["harmonisation_eiv/harmonisation/core/matchup/matchupProcessing/transform2normind/Transform2NormInd.py:run,reverse"]}
{"id": "C24", "title": "Normalisation is reversible for averaged (W matrix) blocks", "statement": "For a block defined by a W matrix, the transformation chooses input values whose W-weighted average reproduces every match-up value, so reverse after run returns the original block.", "quantifier": "every W matrix, u vector and values", "why_tests_cant": "All sparse matrices.", "anchors": ["harmonisation_eiv/harmonisation/core/matchup/matchupProcessing/transform2normind/Transform2NormInd.py:run,reverse"]}
{"id": "C25", "title": "Layout of the normalised problem", "statement": "The normalised object has one variable per match-up for independent blocks, one per W column for averaged blocks, and exactly one extra variable per systematic effect at the end; boundaries are prefix sums.", "quantifier": "every match-up", "why_tests_cant": "Unbounded sizes.", "anchors": ["harmonisation_eiv/harmonisation/core/matchup/matchupProcessing/transform2normind/Transform2NormInd.py:run"]}
{"id": "C26", "title": "Systematic slots are in range and distinct per effect", "statement": "Every systematic block's variable index lies in the tail reserved for systematic errors, and two blocks use the same slot iff they have the same effect number.", "quantifier": "every match-up", "why_tests_cant": "Unbounded sizes.", "anchors": ["harmonisation_eiv/harmonisation/core/matchup/matchupProcessing/transform2normind/Transform2NormInd.py:reverse", "harmonisation_eiv/harmonisation/core/matchup/matchupToolbox/harmonisation/harmonisationProcessing/harmonisation_eiv/GN_algo.py:calc_prod_JPx,unconvert_Xs"]}
{"id": "C27", "title": "The solver's fast un-normalisation equals the reference reverse", "statement": "The compiled per-block un-normalisation used in the solver, and the solver's Python one, give the same covariate values as the transformation's reverse for all four uncertainty types.", "quantifier": "every block", "why_tests_cant": "All numeric contents.", "anchors": ["harmonisation_eiv/harmonisation/core/matchup/matchupToolbox/harmonisation/harmonisationProcessing/harmonisation_eiv/GN_algo.py:unconvert_Xs", "harmonisation_eiv/harmonisation/core/matchup/matchupToolbox/harmonisation/harmonisationProcessing/harmonisation_eiv/cython_lib_GN_algo.pyx", "harmonisation_eiv/harmonisation/core/matchup/matchupProcessing/transform2normind/Transform2NormInd.py:reverse"]}
{"id": "C28", "title": "The Jacobian product and its transpose are adjoint", "statement": "The operator passed to the Gauss-Newton linear solver satisfies <JP x, y> = <x, (JP)^T y> for all vectors.", "quantifier": "every match-up, parameter vector and x, y", "why_tests_cant": "Linear identity over all vectors and uncertainty types.", "anchors": ["harmonisation_eiv/harmonisation/core/matchup/matchupToolbox/harmonisation/harmonisationProcessing/harmonisation_eiv/GN_algo.py:calc_prod_JPx"]}
{"id": "C29", "title": "The normal-equation operator is symmetric positive semi-definite", "statement": "The Hessian product used by MINRES is symmetric and x.Hx >= 0; it equals P^T J^T J P.", "quantifier": "every vector", "why_tests_cant": "All vectors.", "anchors": ["harmonisation_eiv/harmonisation/core/matchup/matchupToolbox/harmonisation/harmonisationProcessing/harmonisation_eiv/GN_algo.py:calc_Hx"]}
{"id": "C30", "title": "The Jacobian is the derivative of the residual", "statement": "The matrix applied by the Jacobian product is the derivative of the residual function that is being minimised with respect to every normalised variable and parameter.", "quantifier": "every sensor model with correct derivatives and every point", "why_tests_cant": "All differentiable models and points.", "anchors": ["harmonisation_eiv/harmonisation/core/matchup/matchupToolbox/harmonisation/harmonisationProcessing/harmonisation_eiv/GN_algo.py:calc_f,calc_prod_JPx,calc_R"]}
{"id": "C31", "title": "Parameter covariance is symmetric and is the parameter block of the inverse Hessian", "statement": "With exact linear solves the returned covariance matrix is symmetric and equals the parameter block of the inverse of J^T J.", "quantifier": "every problem with invertible Hessian", "why_tests_cant": "All matrices.", "anchors": ["harmonisation_eiv/harmonisation/core/matchup/matchupToolbox/harmonisation/harmonisationProcessing/harmonisation_eiv/GN_algo.py:calculate_parameter_covariance_ij"]}
{"id": "C32", "title": "The Gauss-Newton loop stops and its verdict is sound", "statement": "The iteration stops after at most the stated number of iterations, and reports convergence only if the last step met all three tolerances.", "quantifier": "every sequence of iterates and tolerances", "why_tests_cant": "All executions.", "anchors": ["harmonisation_eiv/harmonisation/core/matchup/matchupToolbox/harmonisation/harmonisationProcessing/harmonisation_eiv/GN_algo.py:run"]}
{"id": "C33", "title": "Estimated systematic errors are labelled with the right effect", "statement": "The list of systematic errors returned has one entry per effect, in effect order, labelled by the sensor it belongs to.", "quantifier": "every match-up", "why_tests_cant": "Unbounded sizes.", "anchors": ["harmonisation_eiv/harmonisation/core/matchup/matchupToolbox/harmonisation/harmonisationProcessing/harmonisation_eiv/GN_algo.py:run"]}
{"id": "C34", "title": "Reported degrees of freedom", "statement": "The reported degrees of freedom equal the number of residuals minus the number of estimated unknowns.", "quantifier": "every problem size", "why_tests_cant": "Arithmetic over all sizes.", "anchors": ["harmonisation_eiv/harmonisation/core/matchup/matchupToolbox/harmonisation/harmonisationProcessing/harmonisation_eiv/GN_algo.py:run"]}
{"id": "C35", "title": "A saved solver state restarts the same problem", "statement": "Saving the Gauss-Newton state and opening it restores every quantity on which the residual depends.", "quantifier": "every state", "why_tests_cant": "All contents.", "anchors": ["harmonisation_eiv/harmonisation/core/matchup/matchupToolbox/harmonisation/harmonisationProcessing/harmonisation_eiv/GN_algo.py:save,open"]}
{"id": "C36", "title": "Sensors may have different numbers of covariates", "statement": "The solver handles match-ups between sensors with different covariate counts.", "quantifier": "every covariate count", "why_tests_cant": "All structures.", "anchors": ["harmonisation_eiv/harmonisation/core/matchup/matchupToolbox/harmonisation/harmonisationProcessing/harmonisation_eiv/GN_algo.py:calc_prod_JPx", "harmonisation_eiv/harmonisation/core/matchup/matchupToolbox/utils/matchup_maths.py:evaluate_measurand"]}
{"id": "C37", "title": "Preconditioner matrix is symmetric positive definite", "statement": "The matrix factorised by the preconditioner is symmetric positive definite for every data, so its Cholesky factorisation exists.", "quantifier": "every Jacobian", "why_tests_cant": "All real matrices.", "anchors": ["harmonisation_eiv/harmonisation/core/matchup/matchupToolbox/harmonisation/harmonisationProcessing/harmonisation_eiv_pc/pc_algo.py:calc_LK"]}
{"id": "C38", "title": "Linear solver iteration bound and outcome codes", "statement": "The iterative solver performs at most its iteration limit and its outcome code tells why it stopped.", "quantifier": "every operator, start and tolerance", "why_tests_cant": "All executions.", "anchors": ["harmonisation_eiv/harmonisation/core/matchup/matchupToolbox/harmonisation/harmonisationProcessing/harmonisation_eiv/pykrylov_minres.py:solve"]}
{"id": "C39", "title": "Harmonised parameters survive the output file", "statement": "Writing an output file and reading it back gives the same parameters, covariance and sensor labels for every sensor name up to the field width without surrounding blanks.", "quantifier": "every result", "why_tests_cant": "All contents.", "anchors": ["harmonisation_eiv/harmonisation/core/matchup/matchupToolbox/harmonisation/harmonisationIO/HarmonisationResult.py:write_output_file,open_output_file"]}
{"id": "C40", "title": "Residuals survive the residual files", "statement": "Writing and reading residual files gives back the K residuals and the sensor-state residuals of each series.", "quantifier": "every result", "why_tests_cant": "All contents.", "anchors": ["harmonisation_eiv/harmonisation/core/matchup/matchupToolbox/harmonisation/harmonisationIO/HarmonisationResult.py:write_residual,open_residual"]}
{"id": "C41", "title": "Output and residual files are never confused", "statement": "In a directory written by the package, the output file and the residual files are found by their names, with no file taken for both.", "quantifier": "every file name", "why_tests_cant": "All strings.", "anchors": ["harmonisation_eiv/harmonisation/core/matchup/matchupToolbox/harmonisation/harmonisationIO/HarmonisationResult.py:_get_harm_output_path,_get_harm_res_paths"]}
{"id": "C42", "title": "Every match-up series gets its own residual file", "statement": "Residual files of different match-up series of a run have different names.", "quantifier": "every list of sensor pairs", "why_tests_cant": "All names.", "anchors": ["harmonisation_eiv/harmonisation/core/matchup/matchupToolbox/harmonisation/harmonisationIO/HarmonisationResult.py:write_residual"]}
{"id": "C43", "title": "Residual data structure is rebuilt consistently", "statement": "Opening residual files rebuilds a block structure whose blocks cover all values and whose pair indices decode to the sensors of each file.", "quantifier": "every list of residual files", "why_tests_cant": "Unbounded.", "anchors": ["harmonisation_eiv/harmonisation/core/matchup/matchupToolbox/harmonisation/harmonisationIO/HarmonisationResult.py:open_residual"]}
{"id": "C44", "title": "Measurand evaluation rows correspond to match-ups", "statement": "Evaluating the measurand for a selection of series returns one row per selected match-up in order, each side computed by its own sensor's model with its own parameters.", "quantifier": "every match-up and selection", "why_tests_cant": "All selections.", "anchors": ["harmonisation_eiv/harmonisation/core/matchup/matchupToolbox/utils/matchup_maths.py:evaluate_measurand"]}
{"id": "C45", "title": "K is the difference of the adjusted measurands", "statement": "The evaluated K for each match-up is the adjusted measurand of the second sensor minus that of the first.", "quantifier": "every match-up", "why_tests_cant": "All contents.", "anchors": ["harmonisation_eiv/harmonisation/core/matchup/matchupToolbox/utils/matchup_maths.py:evaluate_K,evaluate_adjusted_measurand"]}
{"id": "C46", "title": "Simulated match-ups span the original data range", "statement": "A simulated match-up has the requested number of points per series, each block equally spaced from the minimum to the maximum of the original block, hence within it, with consistent boundaries.", "quantifier": "every match-up and number of points", "why_tests_cant": "All sizes and contents.", "anchors": ["harmonisation_eiv/harmonisation/core/matchup/matchupProcessing/simulate_matchup/SimulateMatchUp.py:run"]}
{"id": "C47", "title": "AVHRR sensor model derivatives are correct", "statement": "For every AVHRR model the returned derivatives with respect to covariates and parameters are the partial derivatives of the returned measurand.", "quantifier": "every state and parameter", "why_tests_cant": "All reals.", "anchors": ["harmonisation_eiv/harmonisation/sensor_data/AVHRR/AVHRR_sensor_models.py"]}
{"id": "C48", "title": "HIRS sensor model derivatives are correct", "statement": "For the HIRS models the returned derivatives are the partial derivatives of the returned measurand.", "quantifier": "every state and parameter", "why_tests_cant": "All reals.", "anchors": ["harmonisation_eiv/harmonisation/sensor_data/HIRS/HIRS_sensor_models.py"]}
{"id": "C49", "title": "MW sensor model derivatives are correct", "statement": "For the MW model the returned derivatives are the partial derivatives of the returned measurand.", "quantifier": "every state and parameter", "why_tests_cant": "All reals.", "anchors": ["harmonisation_eiv/harmonisation/sensor_data/MW/MW_sensor_models.py"]}
{"id": "C50", "title": "Binning assigns every point to exactly one bin", "statement": "Each data point within the range is averaged into exactly one bin and every bin is an interval of equal width.", "quantifier": "every data set, range and bin count", "why_tests_cant": "All reals.", "anchors": ["harmonisation_eiv/harmonisation/core/utils/stats.py:bin"]}
{"id": "C51", "title": "Time averaging uses every datum exactly once", "statement": "Each datum contributes to the average of exactly the period containing its time.", "quantifier": "every list of times", "why_tests_cant": "All times.", "anchors": ["harmonisation_eiv/harmonisation/core/utils/stats.py:time_average"]}
{"id": "C52", "title": "Monte Carlo mean and variance equal batch statistics", "statement": "Combining trials one by one gives the sample mean and the unbiased sample variance of all trials, whatever their order.", "quantifier": "every list of trials", "why_tests_cant": "All lists and orders.", "anchors": ["harmonisation_eiv/harmonisation/tools/HarmonisationOp.py:combine_mc_trials"]}
{"id": "C53", "title": "Combined covariance elements are placed at their indices", "statement": "Combining separately computed covariance elements gives the full symmetric matrix with each element in its place.", "quantifier": "every number of parameters", "why_tests_cant": "All sizes.", "anchors": ["harmonisation_eiv/harmonisation/tools/HarmonisationOp.py:combine_parameter_covariance_ij"]}
{"id": "C54", "title": "Accepted input files are solvable inputs", "statement": "A match-up file accepted by the checker has positive uncertainties wherever the solver divides by them, a valid type for each column, different sensors, and W/u matrices that exist for each use index.", "quantifier": "every file content", "why_tests_cant": "All contents.", "anchors": ["tools/harmonisation_input_checker.py", "harmonisation_eiv/harmonisation/core/matchup/matchupIO/MatchUpReader.py"]}
{"id": "C55", "title": "Command line options are mutually exclusive as documented", "statement": "The command line accepts a job file or explicit options but no conflicting combination, and the verbosity option is honoured.", "quantifier": "every option combination", "why_tests_cant": "All combinations.", "anchors": ["harmonisation_eiv/harmonisation/tools/common.py:parse_cmdline,read_parsed_cmdline"]}
{"id": "C56", "title": "Generated rolling-average W matrices are valid", "statement": "The generated matrix is a well-formed CSR matrix with one row per match-up, each row holding the given weights on consecutive time positions, every column used, and a u vector of matching length.", "quantifier": "every time series and weights", "why_tests_cant": "All sizes.", "anchors": ["tools/generate_w_matrices.py"]}
{"id": "C57", "title": "A run of the solver always returns", "statement": "For match-ups opened from files of consistent sizes, with at least one value, and sensor models returning arrays of the right sizes, a run of the Gauss-Newton solver returns a result: it raises no exception and stops, whatever the values, the estimate and the vectors the linear solvers return, provided the least-squares object holds a step vector after each solve (it does not when the first gradient is exactly zero).", "quantifier": "every file set of consistent sizes, every estimate, preconditioner, tolerance and linear solver", "why_tests_cant": "All values and sizes, and termination.", "anchors": ["harmonisation_eiv/harmonisation/core/matchup/matchupToolbox/harmonisation/harmonisationProcessing/harmonisation_eiv/GN_algo.py:run"]}
{"id": "C58", "title": "Returned residuals are estimate minus data", "statement": "The variable residuals returned by a run are, in the order and units of the data, the final estimate minus the data, and the K residuals are the K evaluated at the final estimate minus the K of the files.", "quantifier": "every run that returns", "why_tests_cant": "All data, structures and iterations.", "anchors": ["harmonisation_eiv/harmonisation/core/matchup/matchupToolbox/harmonisation/harmonisationProcessing/harmonisation_eiv/GN_algo.py:run", "harmonisation_eiv/harmonisation/core/matchup/matchupProcessing/transform2normind/Transform2NormInd.py:reverse"]}
{"id": "C59", "title": "The preconditioner returns a generalised-least-squares estimate and its covariance", "statement": "PCAlgo.runPC: the residual function given to the least-squares routine is (estimated K - K)/u(K), whitened; the Jacobian given to it is the derivative of that function with respect to the parameters, for every layout of series, sensors and parameters, and agrees with the products of GNAlgo at the same estimate. The run makes at most 20 + ceil(sqrt(unknowns)) refinements, stopping at the first whose estimate moves by less than the tolerance. If the numerical routines keep their contracts, the estimate returned satisfies J' W (k - K) = 0 and the matrix returned is the inverse of J' W J, where W is the inverse of the covariance of K used in the last refinement.", "quantifier": "all solvable match-ups with uncertainties of types 1 and 2, sensor and adjustment models, starting values, tolerances, and all numerical routines satisfying their contracts", "why_tests_cant": "the Jacobian is filled in block by block for any number of series, sensors and parameters, and the statement about the result ranges over every behaviour of the optimiser allowed by its contract", "anchors": ["harmonisation_eiv/harmonisation/core/matchup/matchupToolbox/harmonisation/harmonisationProcessing/harmonisation_eiv_pc/pc_algo.py:PCAlgo.runPC", "harmonisation_eiv/harmonisation/core/matchup/matchupToolbox/harmonisation/harmonisationProcessing/harmonisation_eiv_pc/pc_algo.py:PCAlgo.calc_fJa"]}
{"id": "C60", "title": "The preconditioner's matrix is the covariance of K", "statement": "On a solvable, normalised match-up whose uncertainties are all random - what Sample2Ind always leaves - and at any estimate of variables and parameters, PCAlgo.calc_LK forms a matrix V such that x'Vx = |x|^2 + |J'x|^2 for every vector x, where J is the Jacobian of the K residuals with respect to the normalised variables as computed by GNAlgo's products at the same estimate. So the weights of the preconditioner are the inverse covariance of K given the parameters, to first order.", "quantifier": "all match-up files, sensor and adjustment models, uncertainties of type 1, estimates, and vectors x", "why_tests_cant": "the identity relates two separately written computations (dense matrices block by block against matrix-free products) for every layout, number of series, sensors and covariates", "anchors": ["harmonisation_eiv/harmonisation/core/matchup/matchupToolbox/harmonisation/harmonisationProcessing/harmonisation_eiv_pc/pc_algo.py:PCAlgo.calc_LK", "harmonisation_eiv/harmonisation/core/matchup/matchupToolbox/harmonisation/harmonisationProcessing/harmonisation_eiv/GN_algo.py:GNAlgo.get_JPTx"]}
{"id": "C61", "title": "MINRES returns the minimum-residual vector and reports its true residual", "statement": "In exact arithmetic, for a symmetric operator bounded away from singular by the machine epsilon, the vector returned by Minres.solve after k iterations lies in the Krylov space of order k, has the smallest residual norm of all vectors of that space, the reported rnorm is its true residual norm, the residual history never increases, Arnorm belongs to the previous iterate, and at most n iterations are made; over the reals, and for right-hand sides far from eigenvectors, the call returns and converges when the limit is at least n.", "quantifier": "every size, symmetric matrix, right-hand side, iteration limit and tolerance", "why_tests_cant": "all matrices and sizes; optimality over a whole subspace", "anchors": ["harmonisation_eiv/harmonisation/core/matchup/matchupToolbox/harmonisation/harmonisationProcessing/harmonisation_eiv/pykrylov_minres.py:Minres.solve"]}
{"id": "C62", "title": "LSMR returns the minimum-gradient vector and reports true norms", "statement": "In exact arithmetic and without damping, the vector returned by the LSMR solve after k iterations lies in the Krylov space of order k of the normal equations, the gradient norm of its residual is the smallest of all vectors of that space, the reported residual, gradient and solution norms are the true ones, at most n iterations are made, and a zero gradient (certain after n iterations) means the minimum-norm least-squares solution. Over the reals the call returns and converges within n iterations for every right-hand side.", "quantifier": "every size, matrix of any shape and rank, right-hand side, iteration limit and tolerance", "why_tests_cant": "all matrices and sizes; optimality over a whole subspace", "anchors": ["harmonisation_eiv/harmonisation/core/matchup/matchupToolbox/harmonisation/harmonisationProcessing/harmonisation_eiv/pykrylov_lsmr.py:LSMRFramework.solve", "harmonisation_eiv/harmonisation/core/matchup/matchupToolbox/harmonisation/harmonisationProcessing/harmonisation_eiv/GN_algo.py:GNAlgo.run"]}
{"id": "C63", "title": "A Gauss-Newton step is the step LSMR found at the current estimate", "statement": "Each step of a run of the Gauss-Newton algorithm is the preconditioned LSMR vector of the Jacobian and residuals at the estimate before the step: it minimises the gradient norm of the linearised cost over a Krylov space; the solver object carries nothing from one iteration to the next.", "quantifier": "every match-up, model, preconditioner, tolerance and number of iterations", "why_tests_cant": "all histories of the solver object", "anchors": ["harmonisation_eiv/harmonisation/core/matchup/matchupToolbox/harmonisation/harmonisationProcessing/harmonisation_eiv/GN_algo.py:GNAlgo.run", "harmonisation_eiv/harmonisation/core/matchup/matchupToolbox/harmonisation/harmonisationProcessing/harmonisation_eiv/pykrylov_lsmr.py:LSMRFramework.solve"]}
{"id": "C64", "title": "A saved preconditioner can be used again", "statement": "A preconditioner solution saved by one run (save_pc) can be given to a later run (pc_input), which then has the same parameters and covariance.", "quantifier": "every preconditioner solution, however the directory is listed", "why_tests_cant": "All contents and listing orders.", "anchors": ["harmonisation_eiv/harmonisation/core/matchup/matchupToolbox/harmonisation/harmonisationIO/HarmonisationResult.py:save,__init__", "harmonisation_eiv/harmonisation/core/matchup/matchupToolbox/harmonisation/harmonisationProcessing/harmonisation_eiv/HarmonisationEIV.py:run"]}
{"id": "C65", "title": "Failed Monte Carlo trials leave no trace", "statement": "The parameter sets entering the Monte Carlo statistics are exactly those of the trials that produced an output file, in order.", "quantifier": "every list of trials, each failed or successful", "why_tests_cant": "All patterns of failures and values.", "anchors": ["harmonisation_eiv/harmonisation/tools/HarmonisationOp.py:get_parameters_mc"]}
{"id": "C66", "title": "Monte Carlo covariance is a covariance matrix consistent with the reported deviations", "statement": "The covariance matrix computed from the trials is symmetric and positive semi-definite, its diagonal holds the sample variances, and the standard deviations saved with it are the square roots of the diagonal.", "quantifier": "every list of trials", "why_tests_cant": "All samples.", "anchors": ["harmonisation_eiv/harmonisation/tools/HarmonisationOp.py:combine_mc_trials"]}
{"id": "C67", "title": "Consistent readable files open", "statement": "Opening a non-empty list of match-up files with consistent contents (every variable as long as the number of match-ups, every column with an uncertainty of type 1 to 4 whose matrices exist in the file, optional variables either absent or sized by the match-ups) succeeds.", "quantifier": "every list of files, any numbers of match-ups, covariates, matrices", "why_tests_cant": "All file contents; a slice assignment anywhere in the triple loop of the reader could have a wrong length.", "anchors": ["harmonisation_eiv/harmonisation/core/matchup/matchupIO/MatchUpReader.py:MatchUpReader.read_data"]}
{"id": "C68", "title": "The microwave tool writes readable files with the right matrices", "statement": "For every microwave match-up file the tool writes a file all of whose columns can be read, in which every averaged column of a sensor has a W matrix averaging over the scan lines of that sensor's match-up times, with a u vector of matching length.", "quantifier": "every file of the known sensors, any times and numbers of match-ups", "why_tests_cant": "All times and sizes; the vectors of one sensor are sized by the other.", "anchors": ["tools/MW_add_W_matrices.py:run,read_matchup_data,return_w_matrix_variables_MW"]}
{"id": "C69", "title": "What is written to match-up files is what the reader finds", "statement": "Values, random and systematic uncertainties, K and its uncertainty, times, additional variables, W matrices and u vectors passed to the functions which write match-up files are, when the files are opened, what the match-up object holds for each series, sensor and covariate.", "quantifier": "every list of files, any numbers of match-ups and covariates, any values, uncertainty types 1 to 4, any W matrices and u vectors", "why_tests_cant": "All file contents and combinations of files; writer and reader are separate programs which number sensors, columns and matrices each in its own way.", "anchors": ["tools/W_matrix_functions.py:write_input_file,append_W_to_input_file", "harmonisation_eiv/harmonisation/core/matchup/matchupIO/MatchUpWriter.py:MatchUpWriter.write_input_file,MatchUpWriter.writeMatchUp", "harmonisation_eiv/harmonisation/core/matchup/matchupIO/MatchUpReader.py:MatchUpReader.read_data"]}
{"id": "C70", "title": "The true-K tool puts the K of the sensor models into the output data set", "statement": "For every directory of match-up files and every sensor data, a successful run of the tool leaves the input files as they were, and writes into the output directory the same files with K replaced by the difference of the adjusted measurands (second sensor minus first) of that very file, whatever the order in which the directory is listed.", "quantifier": "every disk content, directory listing order, sensor data and pair of directories", "why_tests_cant": "All listing orders and file contents; a test uses one directory whose listing is usually sorted.", "anchors": ["tools/simulation_set_true_K.py:main", "tools/simulated_AVHRR.py:main"]}
{"id": "C71", "title": "Brightness temperatures become radiances and back", "statement": "For every known instrument and every channel it has, each temperature above absolute zero converts to a positive radiance which increases strictly with temperature; array elements which are missing or not above zero are missing in the result and no element moves; unknown instruments and channels an instrument does not have are refused; and converting a radiance back gives the temperature again.", "quantifier": "all instruments, channels, temperatures and arrays", "why_tests_cant": "Monotonicity and invertibility are statements about all real temperatures.", "anchors": ["tools/convert_bt_to_radiance.py:convertBT.return_band_coefs,temp2rad,rad2temp"]}
{"id": "C72", "title": "Random sampling returns a random selection of each match-up series", "statement": "For every opened match-up and sampling factor sf, SampleMatchUp.run returns a match-up object with, for each series of M match-ups, M/sf distinct match-ups of that series in their order, the same ones in all data blocks, K and uncertainties.", "quantifier": "every set of files, sampling factor and random choice", "why_tests_cant": "All files, factors and random choices.", "anchors": ["harmonisation_eiv/harmonisation/core/matchup/matchupProcessing/sample/SampleMatchUp.py:SampleMatchUp.run", "harmonisation_eiv/harmonisation/core/matchup/matchupIO/Uncertainty.py:Uncertainty"]}
{"id": "C73", "title": "Reported parameter covariance is close to the exact one and never overstates a variance", "statement": "Whenever the parameter covariance is computed with the iterative linear solver, each element differs from the exact covariance (the inverse of the Hessian) by no more than the norms of the right-hand sides times the residual norms of the solves divided by the smallest eigenvalue; the residuals are the smallest possible for the number of iterations made; and every reported variance is positive and at most the exact variance. The computation returns unless a right-hand side is numerically an eigenvector.", "quantifier": "every match-up, estimate, preconditioner, tolerance and number of iterations", "why_tests_cant": "All matrices and iteration counts; the bound on the variances is a property of minimal-residual iterates, not of any single case.", "anchors": ["harmonisation_eiv/harmonisation/core/matchup/matchupToolbox/harmonisation/harmonisationProcessing/harmonisation_eiv/GN_algo.py:GNAlgo.calculate_parameter_covariance_matrix,calculate_parameter_covariance_matrix_ij", "harmonisation_eiv/harmonisation/core/matchup/matchupToolbox/harmonisation/harmonisationProcessing/harmonisation_eiv/pykrylov_minres.py:Minres.solve"]}
{"id": "C74", "title": "Switching off uncertainties or additional variables changes nothing else", "statement": "Opening match-up files without uncertainties, without additional variables, or without both gives exactly the data of a full opening except the parts switched off, and the same measurands and K; with uncertainties off, the outcome does not depend on any uncertainty or matrix in the files, and files with unreadable uncertainties can be opened.", "quantifier": "all lists of match-up files, switches, sensor data and series selections", "why_tests_cant": "All files, including ones with damaged uncertainty data, and both switches.", "anchors": ["harmonisation_eiv/harmonisation/core/matchup/matchupIO/MatchUpReader.py:MatchUpReader.openMatchUp", "harmonisation_eiv/harmonisation/core/matchup/matchupToolbox/harmonisation/harmonisationProcessing/HarmonisationOp.py:HarmonisationOp.run"]}
{"id": "C75", "title": "The AVHRR conversion tool writes match-up files faithful to the file it is given", "statement": "For every AVHRR match-up file of known sensors with brightness temperatures of one infrared band, the tool writes six match-up files (four or five covariates; all effects, no systematic effects, random uncertainties only). Each opens, and holds exactly the match-ups whose scan-line uncertainties have no nan (and, with a temperature limit, are warm enough), in order, with their covariates, K, times and renamed additional variables; files with structured effects have W matrices averaging over the scan lines of each match-up and the uncertainties of these lines; files with random uncertainties only have the standard uncertainty of these averages; nominal measurands are radiances; file names tell the band.", "quantifier": "every match-up file, number of match-ups, kernel length, pattern of missing scan lines, time stamps and temperature limit", "why_tests_cant": "All patterns of missing scan lines, times and kernels; a test runs one file.", "anchors": ["tools/AVHRR_to_updated_spec.py:main,read_matchup_data,return_valid_averages_mask,return_additional_variables,return_w_matrices,prepare_directories,write_file", "tools/generate_w_matrices.py:generate_rolling_average_w_matrix"]}
{"id": "C76", "title": "The conversion of simulated text-file match-ups writes one faithful match-up file per pair of sensors", "statement": "For every table of simulated match-ups with its lists of sensor pairs, numbers of match-ups and uncertainties, the conversion reads the texts as laid out and writes for each pair one file, named after the pair, which holds exactly the rows of that pair (covariates of both sensors, K, times counting on from the rows before), the uncertainties of the effects, and for each moving average a W matrix averaging each match-up with its successors and the uncertainty of that effect; the files open together.", "quantifier": "every table, list of pairs, numbers of match-ups, list of effects and output directory", "why_tests_cant": "All numbers of pairs, match-ups and effects; a test converts one directory.", "anchors": ["tools/pmh2fiduceo.py:open_data_pams,open_data_uncs,run_conversion,generate_rolling_average_w_matrix,write_input_file,return_w_matrix_variables,append_W_to_input_file"]}
{"id": "C77", "title": "Evaluating a match-up with a parameter covariance matrix gives the propagated uncertainty of each measurand", "statement": "For every opened match-up with sensor models, selection of series and covariance matrix of all parameters, evaluate_measurand returns the same measurands as without the matrix and, in the same rows, for each sensor of each match-up the standard uncertainty obtained by the law of propagation of uncertainty: the square root of the quadratic form of the covariance matrix in the derivatives of the measurand with respect to the parameters, where only that sensor's own parameters contribute.", "quantifier": "every set of files, sensor models, selection of series, covariance matrix", "why_tests_cant": "All sizes, label orders and matrices; a test evaluates one match-up.", "anchors": ["harmonisation_eiv/harmonisation/core/matchup/matchupToolbox/utils/matchup_maths.py:evaluate_measurand"]}
{"id": "C78", "title": "Built-in sensor data can be used", "statement": "Every built-in sensor data name gives a dictionary of its own with one entry per sensor, and any other name is refused. Each sensor's model can be evaluated with its own declared number of variables, default parameters and constants, for any number of match-ups: one measurand per match-up, and one derivative per variable and parameter. For HIRS the constants of a sensor are the numbers on its own line of the coefficient file of the channel.", "quantifier": "all built-in names, all sensors in them, all match-up data of the declared shape, all coefficient files for HIRS", "why_tests_cant": "a test of a few sensors cannot show that each of the 35 dictionaries is consistent with its model for every input, nor what happens with other coefficient files", "anchors": ["harmonisation_eiv/harmonisation/sensor_data/SensorDataFactory.py:SensorDataFactory", "HIRS/HIRS_config_functions.py:read_coeff_data, return_sensor_data", "MW/MW____Ch03_3_sensor_data.py", "MW/MW_consts.py", "AVHRR/*_sensor_data.py", "test_sim/test_sim.py"]}
{"id": "C79", "title": "Harmonised values in plots use the harmonised parameters", "statement": "Whatever a visualisation object has been asked before, the measurands and residuals it returns or plots as harmonised are those computed with the parameters of the harmonisation result - each sensor's model on the file's data with the parameters labelled with that sensor - and the nominal ones are those of the files; the match-up it was made of is left with the parameters it had.", "quantifier": "all files, sensor data and results that can be opened and evaluated, all histories of calls on the object", "why_tests_cant": "the values are cached on first use: which value is returned depends on the order of all earlier calls", "anchors": ["harmonisation_eiv/harmonisation/core/matchup/matchupToolbox/harmonisation/harmonisationVis/HarmonisationVis.py:HarmonisationVis", "core/matchup/matchupVis/MatchUpVis.py:MatchUpVis", "tools/harm_plot/HarmonisationPlottingOp.py:run"]}
{"id": "C80", "title": "Plots show the same match-ups, correctly labelled", "statement": "Scatter plots of one object show, for every series, values and times (or two measurands) of the same match-ups, labelled with the two sensors of the series; the same match-ups in every plot, all of them when there are at most 10000 and at most 10000 otherwise. Plots of monthly means show one mean per month with data. Every kind of plot can be made.", "quantifier": "all files, sensor data and results that can be opened and evaluated, all histories of calls, all random draws", "why_tests_cant": "positions are drawn at random once and used for all later plots; wrong pairing of values would show only for some draws and some orders of calls", "anchors": ["core/matchup/matchupVis/MatchUpVis.py:get_i_musamples, musample_values, monthlymean_values, get_mu_labels, plot_*", "harmonisationVis/HarmonisationVis.py:plot_*", "core/utils/plots.py:plot_scatter, plot_density"]}
{"id": "C81", "title": "Binned plots show the binned averages of the residuals", "statement": "The plotting tool draws the residuals against every covariate of the second sensors and against every additional variable of the files: for every series a plot, named after the two sensors, with for every bin that holds match-ups of the series their average residual at the centre of the bin and their standard deviation as error bar, and a plot of all series with every series under its own name.", "quantifier": "all files, sensor data and results that can be opened and evaluated, all names in the sensor data, all random draws", "why_tests_cant": "the plots depend on the numbers of covariates of all sensors, on the ranges of all variables in all series, and on which files have which variables", "anchors": ["core/matchup/matchupVis/MatchUpVis.py:plot_Y_X_binned_line, plot_Y_x_binned_line, set_Xmax_Xmin, get_X_name, get_X_label", "harmonisationVis/HarmonisationVis.py:plot_kres_*_binned_line", "core/utils/plots.py:plot_scatter", "core/utils/stats.py:bin", "tools/harm_plot/HarmonisationPlottingOp.py:run"]}
{"id": "C82", "title": "A harmonisation run solves the match-ups of the directory and writes the result", "statement": "Running a harmonisation on a directory of match-up files with sensor data computes (or reads) a preconditioner from a sample of the match-ups, starts the Gauss-Newton solver from it, and writes a result from which the fitted parameters with their sensors, their covariance, cost, degrees of freedom and the K residuals of every file can be read back.", "quantifier": "all match-up files, sensor data, sensor models, random choices, numerical routines keeping their contracts, preconditioners computed or read, software configurations", "why_tests_cant": "reading, sampling, preconditioning, transformation, solving and saving are composed; whether the pieces fit depends on which tables are updated when the sensor data are set, and on sizes of all files", "anchors": ["harmonisationProcessing/harmonisation_eiv/HarmonisationEIV.py:run", "harmonisationProcessing/harmonisation_eiv_pc/HarmonisationEIVPC.py:run", "tools/HarmonisationOp.py:run", "tools/full_eiv_solver.py:main", "core/matchup/matchupIO/MatchUp.py:setSensorData"]}
{"id": "C83", "title": "The parameter covariance can be computed in pieces from a saved solver", "statement": "A harmonisation that saves its solver instead of computing the covariance, followed by the computation of every element of the parameter covariance matrix from the saved solver and the match-up files, and by the combination of the element files, gives the result and the covariance matrix of the harmonisation that computes the covariance itself; the other staged methods of the operator (preconditioner alone, initial solver, Monte Carlo trial) complete.", "quantifier": "all match-up files, sensor data, sensor models, preconditioners, linear solvers, numbers of parameters, orders in which element files are found", "why_tests_cant": "two processes communicate through a saved solver and re-read files; equality must hold for every sensor model, every data set and every element, also when an element cannot be computed", "anchors": ["tools/HarmonisationOp.py:runPC", "tools/HarmonisationOp.py:calculate_GNOp_initial", "tools/HarmonisationOp.py:calculate_parameter_covariance_ij", "tools/HarmonisationOp.py:combine_parameter_covariance_ij", "tools/HarmonisationOp.py:run_mc_trial", "harmonisationProcessing/harmonisation_eiv/GN_algo.py:save", "harmonisationProcessing/harmonisation_eiv/GN_algo.py:open", "harmonisationProcessing/harmonisation_eiv/GN_algo.py:calculate_parameter_covariance_matrix_ij"]}
{"id": "C84", "title": "Calibration comparison plots show what the two calibrations give for every sensor", "statement": "Comparing the calibration of the sensor data with a saved harmonisation result yields, for every sensor of the match-ups, a plot at 20 equally spaced values of each of the sensor's columns: over what the sensor's model gives with its own parameters, the difference from what it gives with the result's parameters of that sensor, each point with twice the uncertainty propagated from the result's covariance; equal calibrations show no difference.", "quantifier": "all match-up files, orders of files and pairs of sensors, sensor data, sensor models, result parameters, covariances and orders of parameters in the result", "why_tests_cant": "the loop over the series stops when all sensors have been seen, and plots of the same sensor overwrite each other: for which files this covers every sensor, with the right rows, columns and parameters, depends on the whole list of files", "anchors": ["harmonisationVis/HarmonisationVis.py:plot_compare_calibration", "harmonisationVis/HarmonisationVis.py:get_MatchUpSim", "tools/HarmonisationCompPlottingOp.py:run", "matchupVis/plots.py:plot_scatter", "simulate_matchup/SimulateMatchUp.py:run"]}
{"id": "C85", "title": "The cost minimised is the generalised-least-squares objective of the declared errors", "statement": "The cost which the harmonisation minimises and reports is d\u1d40 V\u207b\u00b9 d + \u03a3 (K residual / uncertainty of K)\u00b2, where d are the residuals of all values of the match-ups and V is the covariance of their errors as declared by the files: random errors independent or averaged with the given weights, systematic effects fully correlated over all variables and series they are common to. V is positive definite, so this is well defined, and zero only for zero residuals. No estimate of the solver costs less than the objective of its residuals; for any values and parameters there is an estimate with this cost; and a run from the data reports exactly the objective of the residuals it returns.", "quantifier": "all match-up files whose uncertainties can be normalised, all sensor models, all estimates of the solver, all runs with the LSMR solver from the data with any preconditioner, tolerances and number of iterations", "why_tests_cant": "the solver works with independent normalised variables, more numerous than the values; that its sum of squares equals a quadratic form with an inverse covariance which is never computed is an identity over all files, and holds at the end of a run only because every iterate of the linear solver stays in a subspace", "anchors": ["harmonisation_eiv: core/matchup/matchupToolbox/.../Transform2NormInd.py:run", "harmonisation_eiv: .../GN_algo.py:calc_f, run, calc_prod_JPx", "pykrylov lsmr.py"]}
{"id": "C86", "title": "The order of the match-up files does not matter", "statement": "Harmonising the same match-up files in another order is the same problem: files which open in one order open in any; what is read for a file (variables, K, its uncertainty, times) does not depend on its place; the covariance declared for any two values depends only on the files and columns they are in; parameters and constants come in the same order with the same labels; and the optimal parameters and the optimal cost of the solver are the same.", "quantifier": "all lists of match-up files and all permutations of them, all sensor data and sensor models, all estimates of the solver", "why_tests_cant": "the reader numbers sensors, series, blocks, matrices and systematic effects in order of first appearance, and the listing of several directories is in no defined order; that none of these numbers influences the problem quantifies over all files and all permutations", "anchors": ["harmonisation_eiv: core/matchup/.../MatchUpReader.py:return_matchup_file_paths, get_idx_from_nc_datasets, open_unc_from_nc_datasets, extract_sensor_data", "harmonisation_eiv: .../GN_algo.py:calc_f"]}
{"id": "C87", "title": "A Gauss-Newton step lowers the cost", "statement": "Each step of the EIV solver leads downhill: unless the gradient is already zero, the residuals have a negative product with their change along the step, the linearised problem has a smaller cost at its end, and the cost itself falls along the beginning of the step; the vector tested for convergence is the gradient of the cost (half of it), zero exactly where the cost is stationary; the cost after a step is not larger than before; for linear models an estimate without gradient is optimal.", "quantifier": "all match-ups the solver accepts, all estimates, all preconditioners, all tolerances and options of the linear solver, all runs; smooth sensor models", "why_tests_cant": "that the vector which an iterative linear solver has reached when it stops, at whatever iteration and for whatever reason, is a descent direction is a theorem about Krylov spaces; the test runs only see the cost printed at the end", "anchors": ["harmonisation_eiv: .../GN_algo.py:run, calc_f, get_JPx, get_JPTx", "harmonisation_eiv: .../pykrylov/lls/lsmr.py:LSMRFramework.solve"]}
{"id": "C88", "title": "The reported covariance is the propagation of the declared uncertainties", "statement": "With B the derivatives of K with respect to the match-up values, A those with respect to the parameters, V the covariance the files declare for the values and u the uncertainties of K, the parameter covariance the solver reports is (A^T (diag(u^2) + B V B^T)^-1 A)^-1: the covariance of generalised-least-squares parameters, whatever preconditioner is used.", "quantifier": "all match-ups the solver accepts, with every uncertainty type and correlation structure, all numbers of series, sensors and parameters, all estimates, all smooth sensor models which identify the parameters, all invertible preconditioners", "why_tests_cant": "the code never forms V, B or their products: it solves systems in transformed coordinates, with independent values; that the block of the inverse it reads off is the propagated covariance is a matrix identity for all sizes and structures", "anchors": ["harmonisation_eiv: .../GN_algo.py:calculate_parameter_covariance_matrix, calculate_parameter_covariance_matrix_ij, calc_Hx, get_JPx, get_JPTx", "harmonisation_eiv: .../Transform2NormInd.py:run, reverse"]}
{"id": "C89", "title": "Where the solver stops, the errors-in-variables problem is at its optimum conditions", "statement": "Where the gradient of the cost is zero, the fitted values and parameters satisfy the normal equations of the errors-in-variables problem in the units of the files (values moved by the declared covariance times the sensitivities, K misfits orthogonal to the parameter sensitivities), and conversely. For measurement models affine in values and parameters these are the generalised-least-squares parameters in closed form, independent of the start and the preconditioner, and no linear unbiased estimator has a smaller variance.", "quantifier": "all match-ups the solver accepts, with every uncertainty type and correlation structure, all numbers of series, sensors and parameters, all estimates, all smooth sensor models (affine ones for the closed form), all invertible preconditioners, all linear unbiased estimators", "why_tests_cant": "the solver sees only transformed residuals and their gradient; that its stationary points are those of the problem the user states, and only those, is an equivalence for all sizes and correlation structures", "anchors": ["harmonisation_eiv: .../GN_algo.py:run, calculate_f, get_JPTx, calculate_parameter_covariance_matrix", "harmonisation_eiv: .../Transform2NormInd.py:run, reverse"]}
{"id": "C90", "title": "The cost around its least value is the quadratic form of the parameter covariance", "statement": "For measurement models affine in values and parameters: the least cost with given parameters is the chi-square of the K differences weighted with the covariance which the declared uncertainties give to K; exactly one list of parameters is optimal, in closed form; the least cost with other parameters exceeds the optimum by exactly (a - a*)^T V^-1 (a - a*), with V the propagated parameter covariance (so excess one is one standard uncertainty); and a run which returns a cost within eps of the optimum returns parameters within sqrt(eps) standard uncertainties of the optimal ones, in every combination.", "quantifier": "all match-ups the solver accepts, with every uncertainty type and correlation structure (references with systematic uncertainties included), all numbers of series, sensors and parameters, all starts, preconditioners, tolerances and solver options, all estimates, parameters and combinations of parameters", "why_tests_cant": "the solver reports a cost, parameters and a covariance, each computed separately in transformed coordinates; that they belong together holds for all data or not at all, and no test can look at all parameters", "anchors": ["harmonisation_eiv: .../GN_algo.py:run, calculate_f", "harmonisation_eiv: .../Transform2NormInd.py:run, reverse"]}
{"id": "C91", "title": "The numerical utilities of the Krylov package answer what they say", "statement": "roots_quadratic returns exactly the real roots of the polynomial given; check_positive_definite and check_symmetric return True exactly for operators which are positive (semi)definite, respectively symmetric.", "quantifier": "all coefficients, tolerances and numbers of Newton iterations; all operators of all sizes and all random vectors", "why_tests_cant": "that the list returned contains every root and nothing else, and that an answer is right for whatever vectors are drawn, are claims about all coefficients, operators and draws", "anchors": ["harmonisation_eiv: .../pykrylov_tools_utils.py:roots_quadratic, check_symmetric, check_positive_definite"]}
{"id": "C92", "title": "The regridding lecture shows the uncertainty of the average over the window", "statement": "Scan splits a picture into a window of the given size around the given centre and the rest, which add up to the picture; in the picture drawn every pixel of the window shows the uncertainty of the average over the window (independent parts in quadrature over the number of pixels, common parts averaged) and every other pixel its own combined uncertainty.", "quantifier": "all pictures of all sizes, all window sizes and centres, all shares of the common part, all fields of uncertainties", "why_tests_cant": "the window can lie anywhere, also across the edges, and the fields can hold anything, zeros included", "anchors": ["training/workshop_2019/Uncertainty_Functions.py:Scan, CombinedDa", "training/workshop_2019/regridding_interactive_lecture.ipynb:P"]}
{"id": "C93", "title": "The reported covariance of the parameters does not depend on the order of the files", "statement": "Reading the same match-up files in another order gives the same measurements and K for each match-up of each file, and at the same estimate with the same preconditioner the solver reports the same covariance matrix of the parameters, entry by entry.", "quantifier": "all lists of match-up files and all permutations of them, all sensor data and smooth sensor models, all estimates of the solver", "why_tests_cant": "sensors, blocks, K and systematic effects are numbered in order of first appearance, so the two Hessians are different matrices of different arrangement; that the parameters' corner of their inverses is the same quantifies over all files, permutations and estimates", "anchors": ["harmonisation_eiv: .../GN_algo.py:calculate_parameter_covariance_matrix_ij, get_JPx, get_JPTx, calc_Hx", "harmonisation_eiv: core/matchup/.../MatchUpReader.py:get_idx_from_nc_datasets"]}
{"id": "C94", "title": "Adding match-up files never makes the reported uncertainties larger", "statement": "When files of sensors which are already there are added to a harmonisation, each K of the old files, as a function of its values and the parameters, stays the same, and at the same estimate the covariance of the parameters which the solver reports does not grow: no parameter, and no combination of parameters, gets a larger variance. The least cost with all files is not smaller than the least cost with some of them.", "quantifier": "all lists of match-up files and all choices of some of them which contain all sensors, all shared systematic effects, all smooth sensor models, all estimates of the solver", "why_tests_cant": "added files share sensors and systematic effects with the old ones, so they change the covariance of everything; that the matrix inverses compare as claimed quantifies over all files, selections and estimates", "anchors": ["harmonisation_eiv: .../GN_algo.py:calculate_parameter_covariance_matrix, get_JPx, calc_Hx", "harmonisation_eiv: core/matchup/.../MatchUpReader.py:get_idx_from_nc_datasets, open_unc_from_nc_datasets"]}
{"id": "C95", "title": "More iterations of the linear solvers never give a worse result", "statement": "Solving the same equations with a larger iteration limit makes at least as many iterations, and changes nothing if the limit had not been reached. A solve with more iterations reports a residual (MINRES), a residual and a gradient (LSMR), which are not larger. With MINRES and positive definite equations the error of the solution is not larger, and the product of the solution with the right-hand side - a variance of the covariance matrix - is not smaller, and never exceeds the exact one.", "quantifier": "all matrices, right-hand sides, tolerances and iteration limits of two solves", "why_tests_cant": "monotonicity over all equations and all pairs of iteration counts follows from the optimality of the iterates in growing spaces, which no finite number of solves shows", "anchors": ["harmonisation_eiv: .../harmonisation_eiv/pykrylov_minres.py:Minres.solve", "harmonisation_eiv: .../harmonisation_eiv/pykrylov_lsmr.py:LSMRFramework.solve"]}
{"id": "C96", "title": "Extremes of additional variables; closing a match-up", "statement": "The names of the additional variables are those of the files; the largest and smallest value of an additional variable, of a series or of all series, are those of the values the files hold, ignoring missing values; an unknown name raises ValueError. Closing a match-up always succeeds, can be repeated, leaves no attribute but closed, and a with block closes it also when its body raises.", "quantifier": "all sets of files, additional variables, series, patterns of missing values, orders of attributes and bodies of with blocks", "why_tests_cant": "Python's max of values with nan depends on where the nan is; tests with complete files never see it", "anchors": ["harmonisation_eiv/harmonisation/core/matchup/matchupIO/MatchUp.py:getAdditionalDataNames", "harmonisation_eiv/harmonisation/core/matchup/matchupIO/MatchUp.py:getAdditionalDataMax", "harmonisation_eiv/harmonisation/core/matchup/matchupIO/MatchUp.py:close"]}
{"id": "C97", "title": "The linear solvers do not depend on the numbering or on the axes", "statement": "Writing the equations and the unknowns of a linear system in another order - or in any other orthogonal axes - gives the same solution in that order, after the same number of iterations, with the same stopping code, residual and other norms; a solve which fails fails in the same way.", "quantifier": "all matrices (symmetric or not, singular or not), right-hand sides, options, square roots, symmetry test vectors, and all orthogonal changes of coordinates, also into spaces of more dimensions", "why_tests_cant": "no finite number of systems and orders shows the equality for all; it follows by induction over the iterations", "anchors": ["harmonisation_eiv: .../harmonisation_eiv/pykrylov_minres.py:Minres.solve", "harmonisation_eiv: .../harmonisation_eiv/pykrylov_lsmr.py:LSMRFramework.solve"]}
