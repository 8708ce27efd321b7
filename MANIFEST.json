{"claims":[
{"property": "C01", "status": "proved", "theorems": ["Sglm.C01_l1_prox_exact", "Sglm.C01_soft_thresholding"], "note": "exact arithmetic"},
{"property": "C02", "status": "proved", "theorems": ["Sglm.C02_enet_prox_exact"], "note": "exact arithmetic"},
{"property": "C03", "status": "partial", "theorems": ["Sglm.C03_mcp_prox_exact_partial", "Sglm.C03_false", "Sglm.C03_large_steps"], "note": "full statement false for step > gamma (negation proved, for every step > gamma); proved for step <= gamma"},
{"property": "C04", "status": "proved", "theorems": ["Sglm.C04_l05_prox_exact"], "note": "exact arithmetic"},
{"property": "C05", "status": "partial", "theorems": ["Sglm.C05_l21_prox_exact_partial", "Sglm.C05_nan", "Sglm.C05_false"], "note": "full statement false at alpha=0, v=0 (NaN, negation proved); proved everywhere else"},
{"property": "C06", "status": "proved", "theorems": ["Sglm.C06_block_enet_prox_exact"], "note": "exact arithmetic"},
{"property": "C07", "status": "partial", "theorems": ["Sglm.C07_block_mcp_prox_exact_partial", "Sglm.C07_false", "Sglm.C07_large_steps"], "note": "full statement false for step > gamma (negation proved, for every step > gamma); proved for step <= gamma"},
{"property": "C08", "status": "proved", "theorems": ["Sglm.C08_l1_scores"], "note": "exact arithmetic"},
{"property": "C09", "status": "proved", "theorems": ["Sglm.C09_enet_scores"], "note": "exact arithmetic"},
{"property": "C10", "status": "proved", "theorems": ["Sglm.C10_mcp_scores"], "note": "exact arithmetic; Frechet subdifferential"},
{"property": "C11", "status": "proved", "theorems": ["Sglm.C11_l21_scores"], "note": "exact arithmetic"},
{"property": "C12", "status": "partial", "theorems": ["Sglm.C12_block_enet_scores_partial", "Sglm.C12_rows_partial", "Sglm.C12_false"], "note": "full statement false at zero rows (missing square root; negation proved); proved for the other rows, with an exact characterisation of the rows whose score is right"},
{"property": "C13", "status": "partial", "theorems": ["Sglm.C13_block_mcp_scores_partial", "Sglm.C13_rows_partial", "Sglm.C13_false"], "note": "full statement false for 0<||W_j||<alpha*gamma (gradient ignored; negation proved); proved for the other rows, with an exact characterisation of the rows whose score is right"},
{"property": "C14", "status": "partial", "theorems": ["Sglm.C14_not_worse_partial", "Sglm.C14_returns_zeros", "Sglm.C14_null", "Sglm.C14_false"], "note": "False as stated (C14_full; negation proved): in every float format every run with the L0.5 penalty and tolerance >= 0 returns zeros. What remains: the result is not worse than zero."},
{"property": "C15", "status": "proved", "theorems": ["Sglm.C15_quadratic_dense", "Sglm.C15_quadratic_csc"], "note": "Exact arithmetic (XR). Dense and CSC; duplicates allowed."},
{"property": "C16", "status": "proved", "theorems": ["Sglm.C16_logistic_dense", "Sglm.C16_logistic_csc"], "note": "Exact arithmetic (XR). Dense and CSC; duplicates allowed."},
{"property": "C17", "status": "proved", "theorems": ["Sglm.C17_quadratic_dense", "Sglm.C17_quadratic_csc", "Sglm.C17_logistic_dense", "Sglm.C17_logistic_csc", "Sglm.C17_logistic_labels_needed"], "note": "Includes the majorisation; the last theorem shows that labels outside [-1,1] break it."},
{"property": "C18", "status": "proved", "theorems": ["Sglm.C18_quadratic", "Sglm.C18_logistic", "Sglm.C18_multitask", "Sglm.C18_duplicates_differ"], "note": "n >= 1; the last theorem shows that duplicate entries break it."},
{"property": "C19", "status": "proved", "theorems": ["Sglm.C19_multitask_dense", "Sglm.C19_multitask_csc"], "note": "Partial derivatives and exact quadratic expansion along a row."},
{"property": "C20", "status": "proved", "theorems": ["Sglm.C20_alpha_max", "Sglm.C20_alpha_max_sparse", "Sglm.C20_alpha_max_mtl"], "note": "Exact arithmetic (XR)."},
{"property": "C21", "status": "partial", "theorems": ["Sglm.C21_lin_sys_sound_partial", "Sglm.C21_witness", "Sglm.C21_false"], "note": "The full statement C21_full is false (zero leading pivot); proved for positive semidefinite matrices and for non-vanishing pivots. Exact arithmetic."},
{"property": "C22", "status": "proved", "theorems": ["Sglm.C22_lin_sys_complete"], "note": "Exact arithmetic; size 0 underflows and is excluded."},
{"property": "C23", "status": "proved", "theorems": ["Sglm.C23_working_set", "Sglm.C23_working_set_mt", "Sglm.C23_infinite_scores_evict"], "note": "For every scalar type with lawful comparisons (IEEE floats with NaN and infinities included) and every argsort meeting its specification. Scores equal to +infinity are excluded: C23_infinite_scores_evict shows they can evict the support."},
{"property": "C24", "status": "proved", "theorems": ["Sglm.C24_solve_length", "Sglm.C24_solve_shape_mt"], "note": "Every scalar type, dataset, datafit and penalty (user-defined ones included)."},
{"property": "C25", "status": "proved", "theorems": ["Sglm.C25_no_panic", "Sglm.C25_no_panic_mt", "Sglm.C25_finite", "Sglm.C25_finite_mt", "Sglm.C25_never", "Sglm.C25_never_mt", "Sglm.C25_estimators", "Sglm.C25_estimators_mt"], "note": "C25_never, C25_estimators: in exact arithmetic and every IEEE float format (any type with the comparison rules of floats) runs without acceleration always return. C25_no_panic: without any assumption on the arithmetic only NaN comparisons can panic."},
{"property": "C26", "status": "partial", "theorems": ["Sglm.C26_enough_features_partial", "Sglm.C26_enough_features_mt_partial", "Sglm.C26_few_features_panic", "Sglm.C26_false", "Sglm.C26_finite_partial", "Sglm.C26_finite_mt_partial", "Sglm.C26_lasso_panics", "Sglm.C26_finite_false", "Sglm.C26_never_partial", "Sglm.C26_never_mt_partial", "Sglm.C26_few_features", "Sglm.C26_few_features_mt", "Sglm.C26_default_lasso"], "note": "False as stated: every accelerated run on fewer than K features that does not start at an optimum panics. Holds when K <= min(ws_start_size, n_features), for every float format and all data (C26_never_partial). C26_few_features: with fewer than K features or ws_start_size < K (K <= 10, K < max_epochs), any data, any number format, an accelerated fit returns the null model or panics with an index error; C26_default_lasso: so does the default Lasso on at most 4 features."},
{"property": "C27", "status": "proved", "theorems": ["Sglm.C27_update", "Sglm.C27_epoch", "Sglm.C27_epoch_ok", "Sglm.C27_run", "Sglm.C27_update_mt", "Sglm.C27_epoch_mt", "Sglm.C27_run_mt"], "note": "Exact arithmetic, all datafits, penalties and storage formats, with and without acceleration."},
{"property": "C28", "status": "proved", "theorems": ["Sglm.C28_update", "Sglm.C28_epoch", "Sglm.C28_result", "Sglm.C28_more_iterations", "Sglm.C28_update_mt", "Sglm.C28_epoch_mt", "Sglm.C28_result_mt", "Sglm.C28_more_iterations_mt", "Sglm.C28_mcp_counterexample"], "note": "Exact arithmetic. For MCP the step condition (step size at most gamma) is needed; a counterexample shows it cannot be dropped."},
{"property": "C29", "status": "proved", "theorems": ["Sglm.C29_accept", "Sglm.C29_accept_mt"], "note": "Both solvers, every floating point format, datafit, penalty and design."},
{"property": "C30", "status": "proved", "theorems": ["Sglm.C30_exit", "Sglm.C30_exit_mt", "Sglm.C30_certificate", "Sglm.C30_minimiser", "Sglm.C30_mcp", "Sglm.C30_certificate_mt"], "note": "Exit criterion in every float format; consequences for the objective in exact arithmetic."},
{"property": "C31", "status": "partial", "theorems": ["Sglm.C31_certificate_partial", "Sglm.C31_stops_at_zero", "Sglm.C31_zero_not_optimal", "Sglm.C31_never_stops", "Sglm.C31_false"], "note": "False as stated: the missing square root in the score at zero blocks makes the solver stop at a non-optimal point (and, C31_never_stops, go on at the exact minimiser). Proved instead: the certificate with the correspondingly weaker bound."},
{"property": "C32", "status": "proved", "theorems": ["Sglm.C32_lasso", "Sglm.C32_lasso_sparse", "Sglm.C32_below", "Sglm.C32_multitask"], "note": "Exact arithmetic."},
{"property": "C33", "status": "proved", "theorems": ["Sglm.C33_converged_stable", "Sglm.C33_one_more", "Sglm.C33_converged_stable_mt", "Sglm.C33_one_more_mt"], "note": "Both solvers, every floating point format."},
{"property": "C34", "status": "proved", "theorems": ["Sglm.C34_solve", "Sglm.C34_solve_mt", "Sglm.C34_fit", "Sglm.C34_fit_mt"], "note": "Exact arithmetic; canonical CSC arrays (duplicates: see C18)."},
{"property": "C35", "status": "proved", "theorems": ["Sglm.C35_verbose_result", "Sglm.C35_silent", "Sglm.C35_verbose_result_mt", "Sglm.C35_silent_mt"], "note": "Both solvers, every floating point format."},
{"property": "C36", "status": "proved", "theorems": ["Sglm.C36_quadratic", "Sglm.C36_logistic", "Sglm.C36_multitask"], "note": "All datafits of the crate, dense and CSC, every floating point format."},
{"property": "C37", "status": "partial", "theorems": ["Sglm.C37_solve", "Sglm.C37_fit", "Sglm.C37_mt_update_partial", "Sglm.C37_mt_false"], "note": "Proved for the single-task estimators (every datafit, format and setting). False for the multi-task estimators (the scores of zero rows differ, C12); there only the block updates agree."},
{"property": "C38", "status": "proved", "theorems": ["Sglm.C38_solve", "Sglm.C38_fit"], "note": "Exact arithmetic with infinities."},
{"property": "C39", "status": "proved", "theorems": ["Sglm.C39_solve", "Sglm.C39_fit"], "note": "Exact arithmetic, alpha > 0 (for alpha = 0 the multi-task solver divides 0 by 0, see C05)."},
{"property": "C40", "status": "partial", "theorems": ["Sglm.C40_validation_partial", "Sglm.C40_lasso_domain", "Sglm.C40_false"], "note": "C40_full is false: BlockMCP parameters accept gamma < 1."},
{"property": "C41", "status": "proved", "theorems": ["Sglm.C41_guarded"], "note": "Any scalar type."},
{"property": "C42", "status": "proved", "theorems": ["Sglm.C42_solver_setters", "Sglm.C42_lasso_setters", "Sglm.C42_mcp_setters", "Sglm.C42_enet_setters"], "note": "Any scalar type."},
{"property": "C43", "status": "proved", "theorems": ["Sglm.C43_estimator_is_solver"], "note": "Any scalar type."},
{"property": "C44", "status": "proved", "theorems": ["Sglm.C44_zero_step", "Sglm.C44_zero_step_mt", "Sglm.C44_zero_column", "Sglm.C44_zero_column_mt"], "note": "Without acceleration in every float format; with acceleration in exact arithmetic, all datafits, penalties and storage formats."},
{"property": "C45", "status": "partial", "theorems": ["Sglm.C45_lasso_partial", "Sglm.C45_enet_partial", "Sglm.C45_mcp_partial", "Sglm.C45_false", "Sglm.C45_logistic_partial", "Sglm.C45_mtlasso_partial", "Sglm.C45_mtenet_partial", "Sglm.C45_mtmcp_partial"], "note": "False as stated (C45_full; negation proved): on dense designs all six estimators and sparse logistic regression return the null model whenever a target is NaN. Proved: the NaN does not leak into the coefficients."},
{"property": "C46", "status": "proved", "theorems": ["Sglm.C46_quadratic", "Sglm.C46_multitask", "Sglm.C46_logistic"], "note": "Every scalar type."},
{"property": "C47", "status": "proved", "theorems": ["Sglm.C47_target_casting"], "note": "Any scalar type."},
{"property": "C48", "status": "partial", "theorems": ["Sglm.C48_python_init_partial", "Sglm.C48_false", "Sglm.C48_witnesses"], "note": "C48_full is false: the constructors check alpha where gamma or l1_ratio is meant."},
{"property": "C49", "status": "proved", "theorems": ["Sglm.C49_solve", "Sglm.C49_solve_mt", "Sglm.C49_fit"], "note": "Exact arithmetic; all penalties, both losses (labels are negated for logistic regression), both storage formats, multi-task."},
{"property": "C50", "status": "proved", "theorems": ["Sglm.C50_objective", "Sglm.C50_terminates", "Sglm.C50_one_iteration", "Sglm.C50_objective_mt", "Sglm.C50_terminates_mt", "Sglm.C50_lasso_fit"], "note": "Exact real arithmetic. Non-degeneracy: canonical (duplicate-free) CSC storage, labels in [-1,1] for the logistic loss. Block elastic net is excluded because of the score bug (C12/C31)."},
{"property": "C51", "status": "proved", "theorems": ["Sglm.C51_single", "Sglm.C51_multi"], "note": "sklearn's check_array, numpy and PyO3 conversions are modelled by their documented behaviour."},
{"property": "C52", "status": "partial", "theorems": ["Sglm.C52_predict_partial", "Sglm.C52_columns", "Sglm.C52_after_fit", "Sglm.C52_false"], "note": "C52_full is false; the exact behaviour of predict is proved."},
{"property": "C53", "status": "partial", "theorems": ["Sglm.C53_types_partial", "Sglm.C53_only_valid_partial", "Sglm.C53_panic", "Sglm.C53_false"], "note": "C53_full is false: PanicException instead of ValueError for K = 0."},
{"property": "C54", "status": "partial", "theorems": ["Sglm.C54_float32_partial", "Sglm.C54_type_error", "Sglm.C54_false"], "note": "C54_full is false: float32 designs never give coefficients."},
{"property": "C55", "status": "proved", "theorems": ["Sglm.C55_nonfinite"], "note": "check_array is modelled by its documented behaviour."},
{"property": "C56", "status": "partial", "theorems": ["Sglm.C56_samples_partial", "Sglm.C56_false"], "note": "C56_full is false for sparse single-task fits."},
{"property": "C57", "status": "partial", "theorems": ["Sglm.C57_affine_partial", "Sglm.C57_affine_mt_partial", "Sglm.C57_false"], "note": "Affine combination, support, schedule and acceptance are proved; the weights are not Anderson's: counterexample with K = 2 and two features (C57_false)."},
{"property": "C58", "status": "proved", "theorems": ["Sglm.C58_single", "Sglm.C58_multi"], "note": "Exact arithmetic; single- and multi-task."},
{"property": "C59", "status": "proved", "theorems": ["Sglm.C59_solve", "Sglm.C59_solve_mt", "Sglm.C59_fit", "Sglm.C59_fit_mt"], "note": "All losses and penalties, both storage formats (canonical CSC), any settings; the datasets may have different storage. Exact arithmetic; multi-task estimators for alpha > 0 (and l1_ratio, gamma > 0), because of the block soft threshold at 0."},
{"property": "C60", "status": "partial", "theorems": ["Sglm.C60_solve_partial", "Sglm.C60_solve_mt_partial", "Sglm.C60_fit_partial", "Sglm.C60_fit_mt_partial", "Sglm.C60_false"], "note": "Proved without acceleration (and, with C58, for K = 1). With acceleration false: the weights of the extrapolation come from the leading K x K block of the features' Gram matrix and depend on signs (C60_false, a run of the Lasso solver)."},
{"property": "C61", "status": "partial", "theorems": ["Sglm.C61_solve", "Sglm.C61_solve_mt_partial", "Sglm.C61_fit_lasso", "Sglm.C61_fit_mcp", "Sglm.C61_false"], "note": "Proved for all single-task problems and for multi-task L2,1 and MCP. False for the multi-task elastic net, whose score at zero rows uses the squared norm of the gradient (C61_false)."},
{"property": "C62", "status": "proved", "theorems": ["Sglm.C62_run", "Sglm.ieee_binary64", "Sglm.ieee_binary32", "Sglm.C62_ieee_operations"], "note": "Arithmetic: any type with the laws Precise, Propagates (and PreciseExp for the logistic loss) of Spec/Rounding.lean; Fl (bin t) (rounding to nearest with t+2 bits, Proofs/Fl.lean bin_laws) is a model of them. The precision needed (e0) depends on the problem, tolerance, epsilon and the maximal numbers of iterations and epochs; no explicit value is given. Acceleration needs K <= min(ws_start_size, p) (C26). The laws are proved for IEEE 754 binary64 with e = 2^-50 and binary32 with e = 2^-21 (ieee_binary64, ieee_binary32), for any order of summation and correctly rounded exp and ln. That model of IEEE 754 is checked against the standard's requirements, written independently of its rounding function: correctly rounded sum, difference, product, quotient and square root, NaN, infinities (C62_ieee_operations)."},
{"property": "C63", "status": "proved", "theorems": ["Sglm.C63_terminates", "Sglm.C63_objective", "Sglm.C63_lasso_fit", "Sglm.C63_elastic_net_fit", "Sglm.ieee_binary64", "Sglm.ieee_binary32"], "note": "Same arithmetic laws as C62. The iteration bound depends on the exact problem and tolerance only; e0 depends also on the number of epochs. Epochs at which an inner loop may stop must not be extrapolated (StopsPlain; true of the default settings). The laws are proved for IEEE 754 binary64 with e = 2^-50 and binary32 with e = 2^-21 (ieee_binary64, ieee_binary32), for any order of summation and correctly rounded exp and ln."},
{"property": "C64", "status": "proved", "theorems": ["Sglm.C64_alpha_max", "Sglm.C64_alpha_max_mt", "Sglm.C64_null_fit", "Sglm.C64_null_fit_mt", "Sglm.C64_rejects", "Sglm.C64_sum_squared"], "note": "Exact arithmetic. numpy/scipy reductions are modelled by their documented behaviour (np.max propagates NaN, empty arrays are a ValueError)."},
{"property": "C65", "status": "proved", "theorems": ["Sglm.C65_unique", "Sglm.C65_accuracy", "Sglm.C65_settings", "Sglm.C65_converges", "Sglm.C65_unique_mt", "Sglm.C65_accuracy_mt", "Sglm.C65_converges_mt", "Sglm.C65_float", "Sglm.C65_elastic_net_fit", "Sglm.C65_settings_mt"], "note": "Strong convexity constant: alpha*(1-l1_ratio) of the penalty plus a lower bound of the spectrum of X'X/n for least squares (0 for the logistic loss). C65_accuracy/settings in exact arithmetic for early stops; C65_float and C65_elastic_net_fit for rounded arithmetic with the laws FloatLaws."},
{"property": "C66", "status": "partial", "theorems": ["Sglm.C66_generated", "Sglm.C66_noise", "Sglm.C66_given_partial", "Sglm.C66_noiseless", "Sglm.C66_correlation", "Sglm.C66_rejects", "Sglm.C66_one_axis", "Sglm.C66_false"], "note": "Exact arithmetic; the generator is an oracle (stream of normal draws, contract of choice). Everything holds except for given coefficients: an array of the documented shape (n_features,) always raises a ValueError with finite snr (C66_one_axis, C66_false), only shape (n_features, n_tasks) works (C66_given_partial). C66_noise: design and coefficients depend only on the draws before those of the noise, which is a nonnegative multiple of fresh draws (independent noise)."},
{"property": "C67", "status": "proved", "theorems": ["Sglm.C67_lasso", "Sglm.C67_lasso_sparse", "Sglm.C67_elastic_net", "Sglm.C67_elastic_net_sparse", "Sglm.C67_mcp", "Sglm.C67_mcp_sparse", "Sglm.C67_lasso_ieee", "Sglm.C67_elastic_net_ieee"], "note": "Floating point version of C32, for every arithmetic with the laws MonoRounded (monotone, odd rounding, exact on numbers of the format). These are proved for IEEE 754 arithmetic (binary64, binary32, any order of summation; C67_lasso_ieee, C67_elastic_net_ieee) and for a model rounding towards zero. Single-task estimators only: the multi-task helper computes the norm before the division, the solver after it, so that the last bit may differ; the Python helpers use numpy's dot."},
{"property": "C68", "status": "proved", "theorems": ["Sglm.C68_iterations", "Sglm.C68_iterations_mt", "Sglm.C68_mcp_fit", "Sglm.C68_enet_fit", "Sglm.C68_lasso_fit"], "note": "explicit bound on outer iterations and stationarity of the result, exact arithmetic; the MCP included (Frechet subdifferential)"},
{"property": "C69", "status": "proved", "theorems": ["Sglm.C69_objective", "Sglm.C69_predictions", "Sglm.C69_minimiser", "Sglm.C69_unique", "Sglm.C69_objective_mt", "Sglm.C69_predictions_mt", "Sglm.C69_minimiser_mt", "Sglm.C69_float", "Sglm.C69_lasso_fit", "Sglm.C69_float_mt"], "note": "no assumption on the rank of the design; floats: InFloat, InFloatMT (any arithmetic satisfying FloatLaws, accuracy chosen after the data)"},
{"property": "C70", "status": "proved", "theorems": ["Sglm.C70_selected", "Sglm.C70_zero", "Sglm.C70_sign", "Sglm.C70_support", "Sglm.C70_identified", "Sglm.C70_zero_mt", "Sglm.C70_float", "Sglm.C70_float_mt"], "note": "curvature assumption only for signs; margins explicit"},
{"property": "C71", "status": "proved", "theorems": ["Sglm.C71_penalty", "Sglm.C71_loss", "Sglm.C71_predictions", "Sglm.C71_penalty_mt", "Sglm.C71_loss_mt", "Sglm.C71_predictions_mt"], "note": "follows from the explicit gap of C69 and the certificates of both runs"},
{"property": "C72", "status": "proved", "theorems": ["Sglm.C72_grouping", "Sglm.C72_identical", "Sglm.C72_float"], "note": "certificate of the run tested with the direction which exchanges the two coefficients"},
{"property": "C73", "status": "proved", "theorems": ["Sglm.C73_slow", "Sglm.C73_fast", "Sglm.C73_found", "Sglm.C73_float", "Sglm.C73_slow_mt", "Sglm.C73_fast_mt", "Sglm.C73_float_mt"], "note": "deterministic statement; the probability that l is small is outside the model"},
{"property": "C74", "status": "proved", "theorems": ["Sglm.C74_global", "Sglm.C74_unique", "Sglm.C74_accuracy", "Sglm.C74_settings", "Sglm.C74_unbiased", "Sglm.C74_mcp_fit"], "note": "Strong convexity of least squares plus MCP when the curvature exceeds 1/gamma; Frechet subgradients of weakly convex functions."},
{"property": "C75", "status": "proved", "theorems": ["Sglm.C75_closed_form", "Sglm.C75_zero", "Sglm.C75_closed_form_mt", "Sglm.C75_lasso_fit", "Sglm.C75_float"], "note": "Monotonicity of the weakly convex subdifferential, coordinate by coordinate; explicit solutions in Spec/ClosedForm.lean."},
{"property": "C76", "status": "proved", "theorems": ["Sglm.C76_statistics", "Sglm.C76_scaled", "Sglm.C76_statistics_mt", "Sglm.C76_fit", "Sglm.C76_shift", "Sglm.C76_shift_mt", "Sglm.C76_rotate"], "note": "Run equality via a change of the problem that keeps gradients, steps and scores; the objective changes by a constant only."},
{"property": "C77", "status": "proved", "theorems": ["Sglm.C77_solve", "Sglm.C77_fit"], "note": "Zero columns are excluded: the solver skips them in the elastic net."},
{"property": "C78", "status": "proved", "theorems": ["Sglm.C78_objective", "Sglm.C78_objective_mt", "Sglm.C78_intercept", "Sglm.C78_intercept_mt", "Sglm.C78_targets", "Sglm.C78_accuracy", "Sglm.C78_float", "Sglm.C78_float_mt"], "note": "The intercept is computed by the user; the code has none."},
{"property": "C79", "status": "proved", "theorems": ["Sglm.C79_remove", "Sglm.C79_refit", "Sglm.C79_permute", "Sglm.C79_predictions", "Sglm.C79_add", "Sglm.C79_add_refit", "Sglm.C79_float", "Sglm.C79_remove_mt", "Sglm.C79_refit_mt"], "note": "From the certificate of the stopped run."},
{"property": "C80", "status": "proved", "theorems": ["Sglm.C80_check", "Sglm.C80_gap", "Sglm.C80_recheck", "Sglm.C80_certificate", "Sglm.C80_run", "Sglm.C80_zero", "Sglm.C80_run_gap"], "note": "Explicit forward error analysis of initialize, compute_extrapolated_fit and opt_cond_violation, from the laws Precise (proved of IEEE binary64/binary32 in Props/IEEE.lean). Sizes must be below 1/(128 e). C80_run and C80_zero use no law at all."},
{"property": "C81", "status": "partial", "theorems": ["Sglm.C81_partial", "Sglm.C81_false", "Sglm.C81_overflow", "Sglm.C81_overflow64", "Sglm.C81_overflow32"], "note": "False as stated (exp overflows): C81_false with IEEE witnesses in both formats. C81_partial: finite and accurate, with explicit constants, while no exponential overflows."},
{"property": "C82", "status": "proved", "theorems": ["Sglm.C82_sigmoid", "Sglm.C82_check", "Sglm.C82_gap", "Sglm.C82_recheck", "Sglm.C82_certificate", "Sglm.C82_run_gap", "Sglm.IEEE.saturates"], "note": "Both-way accuracy of the logistic optimality check in any arithmetic with the laws Precise, PreciseExp, Saturates; all three are theorems for IEEE binary64/binary32 with correctly rounded exp. Objective gap for arbitrary coefficients and for the result of a run."},
{"property": "C83", "status": "partial", "theorems": ["Sglm.C83_check_partial", "Sglm.C83_gap_partial", "Sglm.C83_run", "Sglm.C83_zero", "Sglm.C83_run_gap_partial", "Sglm.C83_false", "Sglm.preciseNorm64", "Sglm.preciseNorm32"], "note": "False as stated: squares of tiny coefficients underflow and the code divides by a norm of zero, so exactly optimal coefficients of size 2^-600 (f64) get an infinite violation (C83_false). Partial: rows which are zero or of moderate norm (RowOK: roughly 1e-135 to 1e150 in f64, 1e-11 to 1e17 in f32). The laws PreciseNorm are theorems for binary64/binary32, with matrix products computed in any order, with or without fused multiply-add. C83_run and C83_zero use no law."},
{"property": "C84", "status": "partial", "theorems": ["Sglm.C84_params", "Sglm.C84_no_memory", "Sglm.C84_fit", "Sglm.C84_set_params", "Sglm.C84_clone_partial", "Sglm.C84_enet_clone", "Sglm.C84_false"], "note": "all of it proved, except that an object which can be fitted can be cloned: false of the code (ElasticNet(alpha=1.0, l1_ratio=0.5).set_params(alpha=2.0) fits, but clone raises a ValueError, because the constructor tests alpha where l1_ratio is meant); the clonable objects are characterised"},
{"property": "C85", "status": "proved", "theorems": ["Sglm.C85_run", "Sglm.C85_terminates", "Sglm.C85_objective", "Sglm.C85_accuracy", "Sglm.C85_fit", "Sglm.C85_f64", "Sglm.C85_f32", "Sglm.C85_wide"], "note": "Whole multi-task Lasso runs in arithmetic with the laws MTLaws (a theorem for IEEE f64, f32 and all wide binary formats), precision sufficient for the problem, last epoch not extrapolated (default settings qualify)."},
{"property": "C86", "status": "partial", "theorems": ["Sglm.C86_certificate_partial", "Sglm.C86_all_iterations", "Sglm.C86_stops", "Sglm.C86_violation", "Sglm.C86_never_stops", "Sglm.C86_false"], "note": "False as stated: the score of a row with 0 < norm < alpha*gamma ignores the gradient; C86_false gives a run which stops with a violation of 10/3 under tolerance 1/4, C86_never_stops one which stays at the exact minimiser until max_iterations. Proved instead: what an early exit does say about every row."},
{"property": "C87", "status": "proved", "theorems": ["Sglm.C87_iterates", "Sglm.C87_iterates_mt", "Sglm.C87_some_iterate_mt"], "note": "exact arithmetic; whatever the stopping test; all penalties but L0.5"},
{"property": "C88", "status": "proved", "theorems": ["Sglm.C88_relation", "Sglm.C88_predictions", "Sglm.C88_zero_task", "Sglm.C88_proportional", "Sglm.C88_fit"], "note": "exact arithmetic; acceleration included"},
{"property": "C89", "status": "proved", "theorems": ["Sglm.C89_linear", "Sglm.C89_linear_mt", "Sglm.C89_iterations", "Sglm.C89_iterations_mt", "Sglm.C89_stops"], "note": "Exact arithmetic. The multi-task elastic net with alpha * l1_ratio < 1 needs a working set with all features (its scores order zero rows wrongly). The iteration bound is for the penalties with correct scores (Lasso, elastic net, MCP with one task; multi-task Lasso)."},
{"property": "C90", "status": "proved", "theorems": ["Sglm.C90_predictions", "Sglm.C90_predictions_mt", "Sglm.C90_coefficients", "Sglm.C90_coefficients_mt", "Sglm.C90_sample", "Sglm.C90_logistic", "Sglm.C90_loss"], "note": "Predictions (single and multi-task), coefficients, and replaced samples, for finished fits in exact arithmetic."},
{"property": "C91", "status": "proved", "theorems": ["Sglm.C91_null", "Sglm.C91_improves", "Sglm.C91_multitask", "Sglm.C91_block_enet", "Sglm.C91_lasso", "Sglm.C91_lasso_mt"], "note": "Exact arithmetic. No assumption on the stopping of the run. The block elastic net has the threshold of the code (squared norms), not that of its objective (C45)."},
{"property": "C92", "status": "proved", "theorems": ["Sglm.C92_run", "Sglm.C92_fit", "Sglm.C92_terminates"], "note": "Without extrapolation; both losses, dense and compressed designs; also for the MCP estimator. Includes termination within a number of iterations independent of the format."},
{"property": "C93", "status": "proved", "theorems": ["Sglm.C93_residuals", "Sglm.C93_log_loss", "Sglm.C93_size", "Sglm.C93_size_log", "Sglm.C93_large_mcp", "Sglm.C93_residuals_mt", "Sglm.C93_size_mt", "Sglm.C93_balance", "Sglm.C93_shrinkage", "Sglm.C93_explained", "Sglm.C93_predictions", "Sglm.C93_margins", "Sglm.C93_shrinkage_mt"], "note": "Exact arithmetic (XR). Pull of a penalty (z times its derivative) defined in Spec/Bounds.lean. The L0.5 penalty is excluded from the second part: its stopping test at zero coefficients is a different one. Block MCP is covered by the first part only."},
{"property": "C94", "status": "partial", "theorems": ["Sglm.C94_false", "Sglm.C94_data_partial", "Sglm.C94_noiseless", "Sglm.C94_any_features", "Sglm.C94_tasks", "Sglm.C94_bits"], "note": "C94_full (any targets are possible with any features) is false of the code, C94_false. Proved instead: shapes, which draws are the features and coefficients, any features are possible, and what is added in place of noise. The generator is a parameter (an arbitrary stream)."},
{"property": "C95", "status": "partial", "theorems": ["Sglm.C95_directions_partial", "Sglm.C95_coordinates", "Sglm.C95_trapped", "Sglm.C95_estimator", "Sglm.C95_worse", "Sglm.C95_false"], "note": "Full statement C95_full is false of the code (C95_false; the trap holds for every working-set size, every number of epochs, every way to break ties and every tolerance below 5). Proved instead: certificate in all directions of curvature at least 1/gamma, in particular along each coordinate. Acceleration off in the counterexample only."},
{"property": "C96", "status": "proved", "theorems": ["Sglm.C96_same", "Sglm.C96_same_mt", "Sglm.C96_K", "Sglm.C96_K_mt", "Sglm.C96_working_set", "Sglm.C96_working_set_mt", "Sglm.C96_no_updates", "Sglm.C96_no_updates_mt", "Sglm.C96_acceleration", "Sglm.C96_acceleration_mt", "Sglm.C96_no_panic", "Sglm.C96_no_panic_mt", "Sglm.C96_estimators"], "note": "Exact equality of results, for every scalar type and every comparison sort; C96_same includes the printed lines and the final state of the datafit. C96_acceleration needs data of consistent shapes, since extrapolating is what the other settings would skip."},
{"property": "C97", "status": "proved", "theorems": ["Sglm.C97_probabilities", "Sglm.C97_minimiser", "Sglm.C97_unique", "Sglm.C97_class", "Sglm.C97_selected", "Sglm.C97_zero", "Sglm.C97_path", "Sglm.C97_float"], "note": "Explicit constants. Exact reals for the solver API (Logistic datafit); C97_float for stored data and rounded operations, in every format which is precise enough."},
{"property": "C98", "status": "partial", "theorems": ["Sglm.C98_false", "Sglm.C98_lasso_false", "Sglm.C98_logistic_false", "Sglm.C98_lasso_partial", "Sglm.C98_elastic_net_partial", "Sglm.C98_multi_task_partial", "Sglm.C98_logistic_partial", "Sglm.C98_same_tolerance"], "note": "False of the code (C98_false, C98_lasso_false, C98_logistic_false): the solver and the estimators have different default tolerances (1e-8 and 1e-6), so that for the random numbers 1/200, 0, 0, \u2026 the assertion of the Lasso example fails; and the logistic regression example uses the targets of a linear model as labels, with steps longer than gamma, so that for 3, 0, 0, \u2026 its coefficients are worse than zero. Proved: the only possible failure of the first three examples is the assertion, on the results of two runs with the stated regularisation; with equal tolerances the results are equal; for the elastic net they differ by at most 5.3e-4 in norm if both runs stop, and the assertion holds if the features have curvature 0.064; the logistic example runs, and is no worse than zero if the labels are in [-1, 1] and the steps at most gamma. Multi-task: assumed that some feature is correlated with the targets."},
{"property": "C99", "status": "proved", "theorems": ["Sglm.C99_returns", "Sglm.C99_not_worse", "Sglm.C99_stationary", "Sglm.C99_certificate", "Sglm.C99_iterations", "Sglm.C99_solves", "Sglm.C99_library"], "note": "Single-task solver, exact arithmetic. Contracts LossOK, DatafitOK, PenaltyOK, StorageOK, Regular are in Verif/Spec/Custom.lean; examples: Huber regression with an asymmetric L1 penalty, neither of which is in the library."},
{"property": "C100", "status": "partial", "theorems": ["Sglm.C100_partial", "Sglm.C100_false", "Sglm.C100_diverges", "Sglm.C100_returns", "Sglm.C100_stationary"], "note": "Full statement C100_full is false (C100_false): the Lasso on one sample with the quadratic datafit and the documented step_size diverges for all settings without acceleration (C100_diverges). C100_partial: Lipschitz constants at most 1. C100_returns, C100_stationary: arbitrary nonnegative step sizes."},
{"property": "C101", "status": "proved", "theorems": ["Sglm.C101_returns", "Sglm.C101_not_worse", "Sglm.C101_stationary", "Sglm.C101_certificate", "Sglm.C101_iterations", "Sglm.C101_solves", "Sglm.C101_library"], "note": "Multi-task solver, exact arithmetic. Contracts LossOKMT, DatafitOKMT, PenaltyOKMT, StorageOKMT, RegularMT are in Verif/Spec/CustomMT.lean; example: Huber regression for several tasks with a group elastic net, neither of which is in the library."},
{"property": "C102", "status": "partial", "theorems": ["Sglm.C102_false", "Sglm.C102_stops_at_zero", "Sglm.C102_returns", "Sglm.C102_not_worse", "Sglm.C102_bound", "Sglm.C102_partial", "Sglm.C102_nonzero"], "note": "C102_full is false (C102_false): with a penalty of slopes 1 and 2 written after the documentation, least squares on one sample stops at zero with violation 1. C102_partial: zero coefficients of even penalties. C102_bound: scores which bound the distances up to a factor suffice."},
{"property": "C103", "status": "proved", "theorems": ["Sglm.C103_returns", "Sglm.C103_feasible", "Sglm.C103_stationary", "Sglm.C103_certificate", "Sglm.C103_iterations", "Sglm.C103_solves", "Sglm.C103_zero_column", "Sglm.C103_svm", "Sglm.C103_svm_solves"], "note": "Exact arithmetic; contract in Spec/Constraint.lean. Examples: non-negative Lasso and dual SVM (user code, not in /repo)."},
{"property": "C104", "status": "proved", "theorems": ["Sglm.C104_feasible", "Sglm.C104_unaccelerated", "Sglm.C104_feasible_mt", "Sglm.C104_nonneg", "Sglm.C104_box"], "note": "Any scalar type, no law of arithmetic assumed; instances in IEEE 754 arithmetic."},
{"property": "C105", "status": "proved", "theorems": ["Sglm.C105_objective", "Sglm.C105_weights", "Sglm.C105_lasso_fit", "Sglm.C105_lasso", "Sglm.C105_logistic", "Sglm.C105_weights_mt", "Sglm.C105_repeated", "Sglm.C105_partial_objective", "Sglm.C105_unpenalised"], "note": "Exact arithmetic; generalises C78 (intercepts)."},
{"property": "C106", "status": "partial", "theorems": ["Sglm.C106_false", "Sglm.C106_selected", "Sglm.C106_partial", "Sglm.C106_ignored", "Sglm.C106_objective", "Sglm.C106_removed", "Sglm.C106_never_zero"], "note": "C106_full is false of the code (C106_false: one constant feature, one sample of each class). C106_partial: it holds if 2y-1 is passed. What happens with 0 and 1: C106_ignored, C106_removed, C106_never_zero."},
{"property": "C107", "status": "partial", "theorems": ["Sglm.C107_weak", "Sglm.C107_weak_mt", "Sglm.C107_gap", "Sglm.C107_float", "Sglm.C107_tolerance", "Sglm.C107_lasso_fit", "Sglm.C107_gap_mt", "Sglm.C107_agree", "Sglm.C107_false", "Sglm.C107_partial", "Sglm.C107_float_mt"], "note": "Parts 1 and 2 are proved. C107_full (agreement of coefficients, as asserted by the Python tests) is false of the code: coefficients are not unique (C107_false, two equal features); C107_partial: it holds where the problem is curved. scikit-learn itself is not modelled; the other coefficients are arbitrary with a small duality gap."},
{"property": "C108", "status": "proved", "theorems": ["Sglm.C108_weak", "Sglm.C108_gap", "Sglm.C108_float", "Sglm.C108_agree"], "note": "Exact arithmetic, and C108_float for every sufficiently precise floating-point format."},
{"property": "C109", "status": "proved", "theorems": ["Sglm.C109_no_samples", "Sglm.C109_no_samples_mt", "Sglm.C109_lasso", "Sglm.C109_mt_lasso", "Sglm.C109_alpha_max", "Sglm.C109_alpha_max_sparse", "Sglm.C109_no_features"], "note": "Extended reals (0/0 = NaN, fmax ignores NaN). No features: single task."},
{"property": "C110", "status": "partial", "theorems": ["Sglm.C110_false", "Sglm.C110_partial", "Sglm.C110_partial_mt", "Sglm.C110_certified", "Sglm.C110_certified_mt", "Sglm.C110_twice", "Sglm.C110_cycles", "Sglm.C110_explodes"], "note": "Full statement C110_full (convergence for all arrays) is false: step constants are sums of squares of stored entries. C110_partial: entries at the same position of opposite signs."},
{"property": "C111", "status": "partial", "theorems": ["Sglm.C111_false", "Sglm.C111_lasso_partial", "Sglm.C111_logistic_partial", "Sglm.C111_estimator_partial", "Sglm.C111_sparse_lasso_partial", "Sglm.C111_sparse_logistic_partial", "Sglm.C111_sparse_estimator_partial", "Sglm.C111_zero", "Sglm.C111_zero_logistic", "Sglm.C111_enet_nan", "Sglm.C111_mcp_nan", "Sglm.C111_mtlasso_nan", "Sglm.C111_mtenet_nan", "Sglm.C111_mtmcp_nan", "Sglm.C25_estimators", "Sglm.C25_estimators_mt"], "note": "The full statement is false of the elastic net (C111_false). Proved for the L1 penalty with least squares and logistic losses, dense and sparse; for the elastic net, MCP and the three multi-task penalties on dense designs it is proved that the coefficients are NaN unless the fit is null (working set starting with all features, no acceleration). That these calls return is C25_estimators."},
{"property": "C112", "status": "partial", "theorems": ["Sglm.C112_quadratic_partial", "Sglm.C112_logistic_partial", "Sglm.C112_estimators_partial", "Sglm.C112_mt_partial", "Sglm.C112_estimators_mt_partial", "Sglm.C112_unseen_lasso", "Sglm.C112_unseen_logistic", "Sglm.C112_false"], "note": "Proved without acceleration, generic in the scalar type and the penalty; the effect of a missing target on the features with an entry in that sample is proved for the L1 penalty over the extended reals. The full statement C112_full (sparse and dense Lasso fits agree for all targets, finite or not) is false: C112_false. For real targets it is C34."},
{"property": "C113", "status": "proved", "theorems": ["Sglm.C113_solve", "Sglm.C113_solve_mt", "Sglm.C113_fit", "Sglm.C113_fit_mt", "Sglm.C113_missing_false"], "note": "Exact arithmetic, real data. C113_missing_false: with a missing (NaN) target the claim fails, since an explicit zero makes the sample count."},
{"property": "C114", "status": "proved", "theorems": ["Sglm.C114_same", "Sglm.C114_estimators", "Sglm.C114_stationary", "Sglm.C114_normal", "Sglm.C114_loss", "Sglm.C114_ols", "Sglm.C114_stops", "Sglm.C114_separable", "Sglm.C114_classifies", "Sglm.C114_never_exact"], "note": "Exact arithmetic, single task. The multi-task estimators are excluded: with alpha = 0 their proximal operator can return NaN (C05)."},
{"property": "C115", "status": "proved", "theorems": ["Sglm.C115_errors", "Sglm.C115_mcp", "Sglm.C115_enet", "Sglm.C115_classifies", "Sglm.C115_float"], "note": "Solver level (the crate has no logistic estimator). Misclassified: label times linear predictor is not positive. l1 penalty; MCP and elastic net in exact arithmetic."},
{"property": "C116", "status": "proved", "theorems": ["Sglm.C116_probabilities", "Sglm.C116_residuals", "Sglm.C116_enet", "Sglm.C116_enet_probabilities", "Sglm.C116_residuals_mt", "Sglm.C116_float", "Sglm.C116_float_residuals", "Sglm.C116_float_enet", "Sglm.C116_float_mt"], "note": "Floating point: l1 penalty (both losses) and elastic net (least squares) (single task); multi-task Lasso."},
{"property": "C117", "status": "proved", "theorems": ["Sglm.C117_residual", "Sglm.C117_selected", "Sglm.C117_trace", "Sglm.C117_logistic", "Sglm.C117_mt", "Sglm.C117_float", "Sglm.C117_float_logistic", "Sglm.C117_float_mt"], "note": "Floating point: least squares (Lasso, elastic net), and logistic regression with l1 penalty; multi-task Lasso."},
{"property": "C118", "status": "proved", "theorems": ["Sglm.C118_refit", "Sglm.C118_lasso", "Sglm.C118_alpha_max", "Sglm.C118_refit_mt"], "note": "Exact arithmetic; C118_lasso is at the level of the estimator. alpha_max bounds for the Lasso."},
{"property": "C119", "status": "proved", "theorems": ["Sglm.C119_predictions", "Sglm.C119_logistic", "Sglm.C119_class", "Sglm.C119_mt", "Sglm.C119_float", "Sglm.C119_float_logistic", "Sglm.C119_float_mt"], "note": "Predictions are X w in exact arithmetic, also of coefficients computed in floating point."}
]}
