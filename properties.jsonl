{"id": "C01", "title": "L1 prox is the exact proximal operator", "statement": "For every weight v, regularization alpha >= 0 and step s > 0, L1::prox(v, s) (and soft_thresholding(v, alpha*s)) is the unique minimiser over z of (z-v)^2/2 + s*alpha*|z|.", "quantifier": "all real v, all alpha >= 0, all s > 0", "why_tests_cant": "the minimisation ranges over all reals; a test samples three values", "anchors": ["src/utils/mod.rs:soft_thresholding", "src/penalties/separable/mod.rs:L1::prox"]}
{"id": "C02", "title": "Elastic-net prox is the exact proximal operator", "statement": "For every v, alpha >= 0, l1_ratio in [0,1], s > 0, L1PlusL2::prox(v, s) is the unique minimiser of (z-v)^2/2 + s*alpha*(l1_ratio*|z| + (1-l1_ratio)*z^2/2).", "quantifier": "all real v, all valid alpha, l1_ratio, s", "why_tests_cant": "uncountable domain and a global-minimum claim", "anchors": ["src/penalties/separable/mod.rs:L1PlusL2::prox"]}
{"id": "C03", "title": "MCP prox is the exact proximal operator", "statement": "For every v, alpha >= 0, gamma > 0, s > 0, MCP::prox(v, s) is a global minimiser of (z-v)^2/2 + s*MCP_{alpha,gamma}(z). (True exactly when s <= gamma; when s > gamma the code hard-thresholds at alpha*s, which is not a minimiser: the validation gamma >= 1 does not exclude this.)", "quantifier": "all real v, alpha >= 0, gamma > 0, s > 0", "why_tests_cant": "non-convex global minimum over an uncountable domain; failing region depends on the data through s = 1/L_j", "anchors": ["src/penalties/separable/mod.rs:MCP::prox", "src/estimators/hyperparams.rs:MCParams::check_ref"]}
{"id": "C04", "title": "L0.5 prox is the exact proximal operator", "statement": "For every v and alpha, s > 0, L05::prox(v, s) is a global minimiser of (z-v)^2/2 + s*alpha*sqrt|z|.", "quantifier": "all real v, all alpha > 0, s > 0", "why_tests_cant": "global minimum of a non-convex function given by a trigonometric closed form", "anchors": ["src/utils/mod.rs:prox_05", "src/penalties/separable/mod.rs:L05::prox"]}
{"id": "C05", "title": "L2,1 prox is the exact proximal operator and never produces NaN", "statement": "For every vector v, alpha >= 0, s > 0, L21::prox(v, s) is the unique minimiser of ||z-v||^2/2 + s*alpha*||z||. (The code yields 0/0 = NaN when v = 0 and alpha = 0, a combination accepted by parameter validation.)", "quantifier": "all lengths, all real vectors v, all alpha >= 0, s > 0", "why_tests_cant": "all dimensions and all vectors; the failing point has measure zero", "anchors": ["src/utils/mod.rs:block_soft_thresholding", "src/penalties/block_separable/mod.rs:L21::prox"]}
{"id": "C06", "title": "Block elastic-net prox is the exact proximal operator", "statement": "For every vector v, alpha >= 0, l21_ratio in [0,1], s > 0 with alpha*l21_ratio > 0 or v != 0, BlockL1PlusL2::prox(v, s) is the unique minimiser of ||z-v||^2/2 + s*alpha*(l21_ratio*||z|| + (1-l21_ratio)*||z||^2/2).", "quantifier": "all lengths, all vectors, all valid hyperparameters", "why_tests_cant": "all dimensions and vectors", "anchors": ["src/penalties/block_separable/mod.rs:BlockL1PlusL2::prox"]}
{"id": "C07", "title": "Block MCP prox is the exact proximal operator", "statement": "For every vector v, alpha >= 0, gamma > 0, s > 0, BlockMCP::prox(v, s) is a global minimiser of ||z-v||^2/2 + s*MCP(||z||). (True when s <= gamma; false for s > gamma, and block-MCP parameter validation does not check gamma at all.)", "quantifier": "all lengths, all vectors, all hyperparameters", "why_tests_cant": "non-convex, all dimensions", "anchors": ["src/penalties/block_separable/mod.rs:BlockMCP::prox"]}
{"id": "C08", "title": "L1 violation score is the distance to the subdifferential", "statement": "L1::subdiff_distance(w, grad, ws) returns, for each position k, the Euclidean distance from -grad[k] to the subdifferential of alpha*|.| at w[ws[k]], and the maximum of these distances (-inf for an empty working set).", "quantifier": "all weights, gradients, working sets, alpha >= 0", "why_tests_cant": "set distance over all reals", "anchors": ["src/penalties/separable/mod.rs:L1::subdiff_distance"]}
{"id": "C09", "title": "Elastic-net violation score is the distance to the subdifferential", "statement": "Same as C08 for L1PlusL2.", "quantifier": "all weights, gradients, working sets, valid hyperparameters", "why_tests_cant": "set distance over all reals", "anchors": ["src/penalties/separable/mod.rs:L1PlusL2::subdiff_distance"]}
{"id": "C10", "title": "MCP violation score is the distance to the subdifferential", "statement": "Same as C08 for MCP, with the (Frechet) subdifferential of the non-convex MCP.", "quantifier": "all weights, gradients, working sets, alpha >= 0, gamma > 0", "why_tests_cant": "set distance over all reals, non-convex penalty", "anchors": ["src/penalties/separable/mod.rs:MCP::subdiff_distance"]}
{"id": "C11", "title": "L2,1 violation score is the distance to the subdifferential", "statement": "L21::subdiff_distance returns for each row the Euclidean distance from -grad row to the subdifferential of alpha*||.|| at the weight row, and their maximum.", "quantifier": "all numbers of tasks, rows, gradients, alpha >= 0", "why_tests_cant": "all dimensions", "anchors": ["src/penalties/block_separable/mod.rs:L21::subdiff_distance"]}
{"id": "C12", "title": "Block elastic-net violation score is the distance to the subdifferential", "statement": "Same as C11 for BlockL1PlusL2. (Violated at zero rows: the code forgets the square root and compares ||grad||^2 with alpha*l21_ratio.)", "quantifier": "all numbers of tasks, rows, gradients, valid hyperparameters", "why_tests_cant": "the discrepancy only shows on zero rows, which the unit test never exercises", "anchors": ["src/penalties/block_separable/mod.rs:BlockL1PlusL2::subdiff_distance"]}
{"id": "C13", "title": "Block MCP violation score is the distance to the subdifferential", "statement": "Same as C11 for BlockMCP. (Violated for rows with 0 < ||W_j|| < alpha*gamma: the code ignores the gradient.)", "quantifier": "all numbers of tasks, rows, gradients, hyperparameters", "why_tests_cant": "the unit test's rows all lie in the other branch", "anchors": ["src/penalties/block_separable/mod.rs:BlockMCP::subdiff_distance"]}
{"id": "C14", "title": "L0.5-penalised problems are actually optimised", "statement": "Solving with the L05 penalty returns a point at which the solver has made progress when zero is not stationary. (Violated: the L05 violation score is identically 0, so for every dataset and every tolerance >= 0 the solver returns the all-zero vector without a single epoch.)", "quantifier": "every dataset, datafit, and solver configuration with tolerance >= 0", "why_tests_cant": "universal over datasets", "anchors": ["src/penalties/separable/mod.rs:L05::subdiff_distance", "src/solvers/anderson_cd/mod.rs:coordinate_descent"]}
{"id": "C15", "title": "Quadratic datafit: value and gradient agree", "statement": "For the Quadratic datafit, value(Xw) = ||y-Xw||^2/(2n) and gradient_j is the exact partial derivative of w -> value(Xw) with respect to w_j, for dense and CSC designs; full_grad is the vector of gradient_j.", "quantifier": "all n >= 1, p, X, y, w, j", "why_tests_cant": "derivatives quantify over neighbourhoods, all dimensions", "anchors": ["src/datafits/single_task/mod.rs:Quadratic", "src/datafits/single_task/mod.rs:gradient_j"]}
{"id": "C16", "title": "Logistic datafit: value and gradient agree", "statement": "For the Logistic datafit, value(Xw) = (1/n) sum log(1+exp(-y_i (Xw)_i)) and gradient_j is its exact partial derivative, for dense and CSC designs.", "quantifier": "all n >= 1, p, X, y, w, j", "why_tests_cant": "transcendental derivative, all dimensions", "anchors": ["src/datafits/single_task/mod.rs:Logistic", "src/utils/mod.rs:sigmoid"]}
{"id": "C17", "title": "step_size gives valid coordinate-wise Lipschitz constants", "statement": "For the Quadratic datafit gradient_j changes by exactly step_size[j]*|d| when w_j moves by d; for the Logistic datafit with labels in [-1,1] by at most that; hence the coordinate descent majorisation holds. (For labels outside [-1,1] the logistic constant is too small.)", "quantifier": "all X (sparse: CSC arrays without duplicate entries), y, w, j, displacements d", "why_tests_cant": "global Lipschitz bound over all reals", "anchors": ["src/datafits/single_task/mod.rs:initialize", "src/datafits/single_task/mod.rs:step_size"]}
{"id": "C18", "title": "Sparse and dense datafits agree", "statement": "For every CSC array without duplicate row indices in a column and with in-range indices, initialize/value/gradient_j/full_grad/step_size of Quadratic, Logistic and QuadraticMultiTask on the CSC array equal those on the densified matrix. (With duplicate entries the step sizes differ.)", "quantifier": "all CSC arrays with at least one row, all targets, all model fits", "why_tests_cant": "all sparsity patterns and sizes", "anchors": ["src/datafits/single_task/mod.rs:Datafit for Quadratic (CSC)", "src/datafits/multi_task/mod.rs:QuadraticMultiTask (CSC)"]}
{"id": "C19", "title": "Multi-task quadratic datafit: value and gradient agree", "statement": "QuadraticMultiTask value is ||Y-XW||_F^2/(2n), gradient_j is its exact gradient with respect to row j of W, the step size its exact Lipschitz constant.", "quantifier": "all n >= 1, p, T, X, Y, W, j", "why_tests_cant": "all dimensions", "anchors": ["src/datafits/multi_task/mod.rs:QuadraticMultiTask"]}
{"id": "C20", "title": "alpha_max is the exact null-solution threshold", "statement": "For every X, y with n >= 1: w = 0 minimises the Lasso objective with regularization alpha >= 0 if and only if alpha >= compute_alpha_max(X, y); likewise compute_alpha_max_mtl for the multi-task Lasso, and compute_alpha_max_sparse equals compute_alpha_max of the densified matrix.", "quantifier": "all n >= 1, p, X, y, alpha", "why_tests_cant": "an iff over all weights and all datasets", "anchors": ["src/utils/mod.rs:compute_alpha_max", "src/utils/mod.rs:compute_alpha_max_mtl", "src/utils/mod.rs:compute_alpha_max_sparse"]}
{"id": "C21", "title": "Linear solver soundness", "statement": "If solve_lin_sys(A, b) returns Ok(x) then A x = b. (Violated in general: with a zero leading pivot it can return Ok with a wrong x. True whenever no pivot vanishes, in particular for positive definite A, and for positive semidefinite A - the only kind the acceleration builds.)", "quantifier": "all sizes, all square A, all b", "why_tests_cant": "all matrices; failing matrices have measure zero", "anchors": ["src/utils/mod.rs:solve_lin_sys"]}
{"id": "C22", "title": "Linear solver completeness", "statement": "If all leading principal minors of A are non-zero (e.g. A positive definite) solve_lin_sys returns Ok; if A is singular and positive semidefinite it returns Err.", "quantifier": "all sizes, all such A, all b", "why_tests_cant": "all sizes", "anchors": ["src/utils/mod.rs:solve_lin_sys"]}
{"id": "C23", "title": "Working set is well formed and contains the support", "statement": "For every violation vector without NaN and without +infinity and weights w, construct_ws_from_kkt returns exactly max(ws_start, min(2*nnz, p)) distinct valid feature indices which include every feature with non-zero weight, ordered by decreasing priority, and no excluded feature has a strictly larger violation than an included zero-weight feature. (Infinite scores can evict features of the support.)", "quantifier": "all kkt vectors, weights, ws_start <= p, all (unstable) sort outcomes", "why_tests_cant": "all sizes and all tie-breaking behaviours of the unstable sort", "anchors": ["src/solvers/anderson_cd/mod.rs:construct_ws_from_kkt", "src/solvers/anderson_bcd/mod.rs:construct_ws_from_kkt", "src/utils/mod.rs:argsort_by"]}
{"id": "C24", "title": "Solve returns one coefficient per feature", "statement": "On a dataset whose design matrix and targets have consistent shapes, every successful solve/fit returns exactly n_features coefficients (n_features x n_tasks for multi-task).", "quantifier": "all datasets, penalties, datafits, solver configurations, all floating point formats", "why_tests_cant": "all shapes and histories of the loop", "anchors": ["src/solvers/anderson_cd/mod.rs:coordinate_descent", "src/solvers/anderson_bcd/mod.rs:block_coordinate_descent"]}
{"id": "C25", "title": "Solve without acceleration never panics", "statement": "On shape-consistent data with use_acceleration = false the solver and the estimators never panic, whatever the values in the data and the parameters are: NaN and infinite entries, targets, tolerances and penalties included.", "quantifier": "all datasets and configurations, all iteration counts", "why_tests_cant": "all executions of nested loops", "anchors": ["src/solvers/anderson_cd/mod.rs:coordinate_descent", "src/solvers/anderson_bcd/mod.rs:block_coordinate_descent"]}
{"id": "C26", "title": "Accelerated solve never panics", "statement": "With acceleration enabled (the default) a fit on finite, shape-consistent data does not panic. (Violated: the extrapolation matrix is built with the factors swapped and is ws x ws instead of K x K, so every single-task fit whose working set is smaller than K, e.g. every dataset with fewer than K = 5 features that is not already optimal at 0, panics with index out of bounds at epoch K.)", "quantifier": "all datasets with n_features < K, all penalties and datafits", "why_tests_cant": "universal over datasets; existing unit tests for tiny designs are commented out", "anchors": ["src/solvers/anderson_cd/mod.rs:anderson_accel", "src/utils/mod.rs:solve_lin_sys"]}
{"id": "C27", "title": "Model fit is kept in sync", "statement": "At every point of the optimisation, the internal model fit equals X w (X W), for dense and CSC designs, through coordinate updates and accepted extrapolations.", "quantifier": "all datasets, every reachable state", "why_tests_cant": "invariant over all histories", "anchors": ["src/datasets/impl_design_matrix.rs:update_model_fit", "src/solvers/anderson_cd/mod.rs:coordinate_descent", "src/solvers/anderson_bcd/mod.rs:block_coordinate_descent"]}
{"id": "C28", "title": "The objective never increases", "statement": "Along every run (exact arithmetic) every coordinate update, every extrapolation and hence every epoch does not increase datafit + penalty; so the objective at the returned coefficients is at most the objective at zero, for Lasso, ElasticNet, MCP (when gamma*L_j >= 1 for all j), sparse logistic regression (labels in [-1,1]), MultiTaskLasso, MultiTaskElasticNet and BlockMCP (same condition on gamma). (For MCP with gamma*L_j < 1 an update can increase it.)", "quantifier": "all datasets, hyperparameters, iteration counts, working sets", "why_tests_cant": "invariant over all histories", "anchors": ["src/solvers/anderson_cd/mod.rs:coordinate_descent", "src/solvers/anderson_bcd/mod.rs:block_coordinate_descent"]}
{"id": "C29", "title": "An extrapolated point is accepted only if it strictly decreases the objective", "statement": "anderson_accel either leaves (w, Xw) unchanged or replaces them by a point whose computed objective is strictly smaller, for any float format including NaN/inf outcomes.", "quantifier": "all states, all floating point formats", "why_tests_cant": "all states, including ill-conditioned ones", "anchors": ["src/solvers/anderson_cd/mod.rs:anderson_accel", "src/solvers/anderson_bcd/mod.rs:anderson_accel"]}
{"id": "C30", "title": "Early exit certifies approximate optimality", "statement": "If the solver stops before exhausting max_iterations, the returned coefficients have violation score <= tolerance for every feature; for Lasso and ElasticNet (and MultiTaskLasso) the objective then exceeds the optimum by at most tolerance*||w - w*||_1; with tolerance 0 the result is a global minimiser.", "quantifier": "all datasets, hyperparameters and competitor points w*", "why_tests_cant": "a global-optimality claim over all competitor points", "anchors": ["src/solvers/anderson_cd/mod.rs:coordinate_descent", "src/estimators/estimators.rs:Lasso", "src/estimators/estimators.rs:ElasticNet"]}
{"id": "C31", "title": "MultiTaskElasticNet early exit certifies optimality", "statement": "Same as C30 for MultiTaskElasticNet. (Violated because of C12: the fit can stop at W = 0 although W = 0 is not optimal, for every tolerance >= 0.)", "quantifier": "all datasets", "why_tests_cant": "needs a dataset whose gradient norms are below one", "anchors": ["src/penalties/block_separable/mod.rs:BlockL1PlusL2::subdiff_distance", "src/estimators/estimators.rs:MultiTaskElasticNet"]}
{"id": "C32", "title": "alpha >= alpha_max gives the null model", "statement": "Lasso::fit with alpha >= compute_alpha_max(X, y) (resp. the sparse helper; MultiTaskLasso with alpha > 0 and compute_alpha_max_mtl) returns exactly zero coefficients for every other setting with tolerance >= 0.", "quantifier": "all datasets, all alpha >= alpha_max, all solver settings", "why_tests_cant": "universal over datasets and settings", "anchors": ["src/utils/mod.rs:compute_alpha_max", "src/estimators/estimators.rs:Lasso"]}
{"id": "C33", "title": "More iterations do not change a converged result", "statement": "If a solve with max_iterations = m ends at a point whose violation is <= tolerance, then every solve with max_iterations >= m returns the same coefficients; and the result for m+1 is obtained by one more outer iteration from the result for m.", "quantifier": "all datasets, penalties, datafits, float formats, m <= m'", "why_tests_cant": "all pairs of iteration budgets", "anchors": ["src/solvers/anderson_cd/mod.rs:coordinate_descent"]}
{"id": "C34", "title": "Sparse and dense fits agree", "statement": "For every CSC array in canonical form, the solve on the CSC array equals the solve on the densified matrix (exact arithmetic), for Quadratic and Logistic datafits and every penalty, and for the multi-task solver.", "quantifier": "all CSC arrays, penalties, hyperparameters, iteration counts", "why_tests_cant": "whole-run equality over all sparsity patterns", "anchors": ["src/datasets/impl_design_matrix.rs:DesignMatrix for CSCArray", "src/solvers/anderson_cd/mod.rs:coordinate_descent"]}
{"id": "C35", "title": "verbose only affects printing", "statement": "Solving with verbose = true and verbose = false gives the same coefficients (or the same panic); with verbose = false nothing is printed.", "quantifier": "all datasets, penalties, datafits, float formats", "why_tests_cant": "all runs", "anchors": ["src/solvers/anderson_cd/mod.rs:coordinate_descent", "src/solvers/anderson_bcd/mod.rs:block_coordinate_descent"]}
{"id": "C36", "title": "A datafit object can be reused", "statement": "The result of solve does not depend on the state left in the datafit object by previous solves on other datasets.", "quantifier": "all previous histories of the datafit object", "why_tests_cant": "all histories", "anchors": ["src/datafits/single_task/mod.rs:initialize", "src/datafits/multi_task/mod.rs:initialize"]}
{"id": "C37", "title": "ElasticNet with l1_ratio = 1 is Lasso", "statement": "ElasticNet fits with l1_ratio = 1 return the same coefficients as Lasso fits with the same settings (exact arithmetic); same for MultiTaskElasticNet versus MultiTaskLasso penalties (violated for the scores of zero rows, see C12).", "quantifier": "all datasets and settings", "why_tests_cant": "whole-run equality", "anchors": ["src/penalties/separable/mod.rs:L1PlusL2", "src/penalties/separable/mod.rs:L1"]}
{"id": "C38", "title": "MCP with gamma = inf is Lasso", "statement": "MCP fits with gamma = +inf and alpha > 0 return the same coefficients as Lasso (documented in the Python API).", "quantifier": "all datasets and settings, alpha > 0", "why_tests_cant": "whole-run equality with infinities", "anchors": ["src/penalties/separable/mod.rs:MCP", "python/sparseglm/estimators.py:MCPRegressor"]}
{"id": "C39", "title": "Multi-task solvers with one task agree with single-task solvers", "statement": "MultiTaskLasso on a one-column target equals Lasso on that column (exact arithmetic).", "quantifier": "all datasets with one task, alpha > 0, all settings", "why_tests_cant": "whole-run equality", "anchors": ["src/solvers/anderson_bcd/mod.rs:block_coordinate_descent", "src/solvers/anderson_cd/mod.rs:coordinate_descent"]}
{"id": "C40", "title": "Hyperparameter validation accepts exactly the documented domain", "statement": "Each *Params::check accepts exactly: alpha, tolerance not sign-negative, K >= 1, ws_start_size >= 1, plus gamma >= 1 for MCP and l1_ratio in [0,1] for the elastic nets; otherwise it returns the first violated constraint's error carrying the offending value. (BlockMCParams does not validate gamma.)", "quantifier": "all hyperparameter values including NaN, infinities, -0.0", "why_tests_cant": "all parameter combinations", "anchors": ["src/estimators/hyperparams.rs:ParamGuard"]}
{"id": "C41", "title": "Fitting with invalid parameters fails before touching data", "statement": "Params::fit(dataset) returns the validation error for invalid parameters whatever the dataset (even ill-shaped), and otherwise equals fit of the checked parameters; check and check_ref agree.", "quantifier": "all parameters and datasets", "why_tests_cant": "all parameter/dataset combinations", "anchors": ["src/estimators/param_guard.rs:Fit for P"]}
{"id": "C42", "title": "Builder setters are independent", "statement": "Each setter of Solver and of the *Params builders changes exactly its own field, so any sequence of setter calls yields the last value set for each field and the documented default for the others.", "quantifier": "all sequences of setter calls", "why_tests_cant": "all call histories", "anchors": ["src/estimators/hyperparams.rs:LassoParams", "src/solvers/impl_solver.rs:Solver"]}
{"id": "C43", "title": "Estimator API and solver API coincide", "statement": "Lasso/ElasticNet/MCP/MultiTaskLasso/MultiTaskElasticNet/BlockMCP fit returns the coefficients that Solver::solve(_multi_task) with the same hyperparameters and the corresponding datafit and penalty returns.", "quantifier": "all datasets and hyperparameters", "why_tests_cant": "whole-run equality", "anchors": ["src/estimators/estimators.rs:fit", "src/solvers/impl_solver.rs:solve"]}
{"id": "C44", "title": "Features with zero column keep zero weight", "statement": "A feature whose design column is identically zero has coefficient exactly 0 in every result: in exact arithmetic for all settings, in every float format (step size equal to 0) without acceleration.", "quantifier": "all datasets with zero columns, all settings", "why_tests_cant": "invariant over all histories", "anchors": ["src/solvers/anderson_cd/mod.rs:coordinate_descent"]}
{"id": "C45", "title": "NaN targets are not silently accepted", "statement": "Fitting data containing NaN reports an error. (Violated: with a NaN in y every estimator and sparse logistic regression return all-zero coefficients as if converged; a single missing target of one task does so for all tasks of a multi-task fit.)", "quantifier": "all datasets with a NaN target", "why_tests_cant": "all positions of NaN", "anchors": ["src/penalties/separable/mod.rs:L1::subdiff_distance", "src/solvers/anderson_cd/mod.rs:coordinate_descent"]}
{"id": "C46", "title": "Shape mismatches never produce coefficients silently", "statement": "On a dense design whose number of rows differs from the number of targets, solve panics instead of returning coefficients (for the logistic datafit, provided there is at least one feature and max_iterations >= 1; the least-squares datafits check it on initialization).", "quantifier": "all mismatched shapes", "why_tests_cant": "all shapes", "anchors": ["src/datafits/single_task/mod.rs:initialize", "src/datafits/multi_task/mod.rs:initialize"]}
{"id": "C47", "title": "Target casting is faithful", "statement": "A 1-d target has one task, as_multi_tasks has the target as its only column, and try_single_target returns it unchanged; a user target type presenting more than one column is rejected with NonCastableSingleTargets.", "quantifier": "all targets", "why_tests_cant": "all shapes", "anchors": ["src/datasets/impl_targets.rs", "src/datasets/mod.rs:try_single_target"]}
{"id": "C48", "title": "Python constructors enforce the documented parameter domains", "statement": "MCPRegressor/BlockMCPRegressor accept every alpha >= 0 and gamma >= 1 and reject gamma < 1; ElasticNet/MultiTaskElasticNet accept every alpha >= 0 and reject l1_ratio outside [0,1]. (Violated: the constructors test alpha instead of gamma / l1_ratio.)", "quantifier": "all constructor arguments", "why_tests_cant": "decision table over all floats", "anchors": ["python/sparseglm/estimators.py"]}
{"id": "C49", "title": "Sign equivariance", "statement": "Negating the targets negates the coefficients of Lasso, ElasticNet and MCP fits (exact arithmetic).", "quantifier": "all datasets and settings", "why_tests_cant": "metamorphic whole-run relation", "anchors": ["src/solvers/anderson_cd/mod.rs:coordinate_descent"]}
{"id": "C50", "title": "The solver converges", "statement": "For a convex penalised problem with a non-zero penalty (Lasso or ElasticNet with least squares or logistic loss, multi-task Lasso): (a) for every accuracy eps > 0 there are a tolerance tau0 > 0 and a number N such that every fit with tolerance <= tau0, max_iterations >= N, ws_start_size >= 1, max_epochs >= 1 that returns has an objective within eps of the infimum, accelerated or not; (b) for every tolerance > 0 the number of outer iterations is bounded by a number N which does not depend on the settings, and with max_iterations >= N the result satisfies the optimality conditions up to the tolerance, provided the epochs at which the inner loop may stop are not extrapolated ones (true for the default K = 5 and max_epochs = 1000, and without acceleration); (c) if ws_start_size is at least the number of features, one iteration with sufficiently many epochs suffices.", "quantifier": "all datasets, alpha > 0, tolerance > 0, eps > 0, all solver settings as stated, both storage formats", "why_tests_cant": "asymptotic statement over unbounded runs", "anchors": ["src/solvers/anderson_cd/mod.rs:coordinate_descent"]}
{"id": "C51", "title": "A Python fit is the Rust fit", "statement": "For the six Python estimators, on finite non-empty float64 (or convertible) data with hyperparameters the constructor accepts, coef_ is exactly the coefficients of the Rust estimator of the same name fitted with the same hyperparameters on the same data (its transpose for the multi-task estimators), for dense and for sparse (CSC with 32-bit indices) designs; a PanicException is raised exactly when the Rust fit panics or returns an error.", "quantifier": "all data of any shape, all hyperparameters and settings", "why_tests_cant": "wiring of eight keyword arguments and of the storage formats through three layers, for all values", "anchors": ["python/sparseglm/estimators.py", "python/src/lasso.rs", "python/src/mcp.rs", "python/src/elastic_net.rs", "python/src/mtl_lasso.rs", "python/src/block_mcp.rs", "python/src/multi_task_elastic_net.rs"]}
{"id": "C52", "title": "Python predictions", "statement": "After fit, predict(X) returns X @ coef_.T; before fit it raises the 'must be fitted' exception. (Violated: `if not self.coef_` raises ValueError for every model with two or more coefficients, and takes a single zero coefficient for a missing fit.)", "quantifier": "all fitted models, all designs", "why_tests_cant": "depends on the values and number of the coefficients", "anchors": ["python/sparseglm/estimators.py:predict"]}
{"id": "C53", "title": "Python reports invalid hyperparameters as ValueError", "statement": "Hyperparameters outside the domain accepted by the Rust estimators raise ValueError in Python and never give coefficients. (Violated: K = 0, p0 = 0, gamma < 1, l1_ratio outside [0,1] and alpha = -0.0 pass the Python checks and end in a PanicException.)", "quantifier": "all hyperparameters and settings, all data", "why_tests_cant": "decision over all floats and integers in two languages", "anchors": ["python/sparseglm/estimators.py:_validate_params", "src/estimators/hyperparams.rs"]}
{"id": "C54", "title": "float32 data in Python", "statement": "A design with float32 entries is fitted like the same values in float64 (check_array explicitly keeps float32). (Violated: the wrappers take float64 arrays only, so every float32 fit fails with TypeError.)", "quantifier": "all estimators, settings, data", "why_tests_cant": "universal negative: no float32 input ever works", "anchors": ["python/sparseglm/estimators.py:fit", "python/src/lasso.rs"]}
{"id": "C55", "title": "Python rejects NaN and infinite data", "statement": "Every fit on a design or targets with a NaN or infinite entry, or without samples, raises ValueError; whatever the other arguments, the Rust solver is never run on such data.", "quantifier": "all estimators, arguments and data", "why_tests_cant": "all positions of the bad entry, all combinations with other bad arguments", "anchors": ["python/sparseglm/estimators.py:fit"]}
{"id": "C56", "title": "Python fits on mismatched sample counts", "statement": "If the design and the targets have different numbers of samples, fit raises an exception and never produces coefficients. (Violated: single-task estimators with a sparse design ignore the row count of the scipy matrix.)", "quantifier": "all estimators, settings, data", "why_tests_cant": "all shapes", "anchors": ["python/sparseglm/estimators.py:fit", "python/src/lasso.rs:fit_sparse"]}
{"id": "C57", "title": "Extrapolated points", "statement": "With acceleration, every (K+1)-th epoch may replace the coefficients by an extrapolated point. That point is an affine combination (weights summing to one) of the first K of the last K+1 iterates on the working set, zero elsewhere, it is used only if its objective is smaller than that of the plain epoch, and its weights are Anderson's: they minimise the norm of the same combination of the differences of the iterates. (The last part is violated: the weights are computed from a features-by-features matrix.)", "quantifier": "all losses, penalties, designs, storage formats, working sets, epochs and stored iterates; single- and multi-task", "why_tests_cant": "needs all iterates and working sets; wrong weights only slow the solver down, so outputs look right", "anchors": ["src/solvers/anderson_cd/mod.rs:anderson_accel", "src/solvers/anderson_bcd/mod.rs:anderson_accel"]}
{"id": "C58", "title": "Acceleration with K = 1", "statement": "With K = 1 a fit gives the same result with acceleration on and off: the only point extrapolation can propose is the previous iterate, whose objective is not smaller.", "quantifier": "all losses, penalties (MCP: step sizes at most gamma), canonical designs, targets, settings with a positive ws_start_size", "why_tests_cant": "equality of two complete runs for all data and settings", "anchors": ["src/solvers/anderson_cd/mod.rs:anderson_accel", "src/solvers/anderson_bcd/mod.rs:anderson_accel"]}
{"id": "C59", "title": "Only the collection of samples matters", "statement": "A fit depends only on which samples the dataset contains and in which proportions: reordering the samples, repeating every sample equally often, or negating a sample together with its target gives exactly the same result (coefficients, iteration count, exceptions).", "quantifier": "all estimators, losses, penalties, settings, canonical dense or CSC designs (the two datasets may be stored differently), real targets; exact arithmetic", "why_tests_cant": "equality of two complete runs for all data, orders, repetitions and settings", "anchors": ["src/estimators/estimators.rs:fit", "src/datafits/single_task/mod.rs:Quadratic", "src/datafits/single_task/mod.rs:Logistic", "src/datafits/multi_task/mod.rs:QuadraticMultiTask", "src/solvers/anderson_cd/mod.rs:coordinate_descent"]}
{"id": "C60", "title": "Negating features negates their coefficients; rotating the tasks rotates the coefficients", "statement": "If some columns of the design matrix are multiplied by -1 and nothing else changes, the fitted coefficients of these columns change sign and the others stay the same; the number and kind of errors are the same. In multi-task problems, mapping all targets by a linear isometry of the task space (e.g. permuting tasks, negating a task, adding a task with zero targets) maps every row of coefficients by the same isometry. Exact for every number of iterations, not only at convergence.", "quantifier": "all designs (dense, canonical sparse), targets, penalties with valid hyperparameters, both losses, all solver settings", "why_tests_cant": "relates two runs on infinitely many pairs of inputs; tests compare a few pairs with a tolerance, and would attribute small differences to rounding", "anchors": ["src/solvers/anderson_cd/mod.rs:coordinate_descent", "src/solvers/anderson_cd/mod.rs:anderson_accel", "src/solvers/anderson_bcd/mod.rs:block_coordinate_descent", "src/penalties/separable/mod.rs:prox", "src/penalties/block_separable/mod.rs:prox"]}
{"id": "C61", "title": "Changing units of targets and features changes those of the coefficients", "statement": "If the targets are multiplied by c > 0 and the features by d > 0, alpha and the tolerance by c*d (MCP: gamma by 1/d^2; elastic net: L1 part by c*d, L2 part by d^2; L0.5: by c*d*sqrt(c/d); logistic: c = 1), then the coefficients returned are exactly those of the original problem times c/d, for every number of iterations and with or without acceleration.", "quantifier": "all designs, targets, scale factors, valid hyperparameters, solver settings; a sort which looks at its elements only through the comparison", "why_tests_cant": "relates runs on infinitely many pairs of inputs and scale factors; a test would compare converged solutions of a few pairs up to a tolerance", "anchors": ["src/solvers/anderson_cd/mod.rs:coordinate_descent", "src/solvers/anderson_bcd/mod.rs:block_coordinate_descent", "src/penalties/separable/mod.rs:prox", "src/penalties/block_separable/mod.rs:subdiff_distance", "src/estimators/hyperparams.rs:check_ref"]}
{"id": "C62", "title": "In floating point, a fit returns finite coefficients that are no worse than zero", "statement": "With rounding errors taken into account (finite precision arithmetic which rounds, overflows and propagates NaN, data and hyperparameters stored with rounding), a Lasso, elastic net or sparse logistic regression fit whose arithmetic is precise enough for the problem does not panic, returns finite coefficients, and their exact objective exceeds that of the zero coefficients by at most epsilon. If the solver stops before max_iterations, the returned coefficients satisfy the optimality conditions of the exact problem up to tolerance + epsilon.", "quantifier": "all designs (dense, canonical sparse), targets, valid convex penalties which are not identically zero, both losses, all settings accepted by the crate (acceleration included), all epsilon > 0; all arithmetics with the listed laws and sufficient precision", "why_tests_cant": "tests run a few problems in binary64; rounding errors accumulate over millions of operations, and NaN or overflow in intermediate results (extrapolation, sigmoid, division by small Lipschitz constants) can hide on other data", "anchors": ["src/solvers/anderson_cd/mod.rs:coordinate_descent", "src/solvers/anderson_cd/mod.rs:anderson_accel", "src/datafits/single_task/mod.rs:Quadratic", "src/datafits/single_task/mod.rs:Logistic", "src/penalties/separable/mod.rs:L1", "src/penalties/separable/mod.rs:L1PlusL2"]}
{"id": "C63", "title": "In floating point, the solver still stops and reaches the minimum", "statement": "For every tolerance there is a number of iterations, independent of the number format, after which the solver has stopped, provided the arithmetic is precise enough; the returned coefficients then satisfy the optimality conditions up to tolerance + epsilon. Every accuracy of the objective is reached by choosing tolerance, iterations and precision. In particular rounding errors do not make the solver stall above a positive tolerance, or cycle forever.", "quantifier": "all designs (dense, canonical sparse), targets, valid convex penalties which are not identically zero, both losses, settings accepted by the crate whose last epoch is not extrapolated; all arithmetics with the listed laws and sufficient precision", "why_tests_cant": "a claim about all problems, all sufficiently precise formats and unboundedly many iterations; tests in binary64 cannot tell slow convergence from stalling", "anchors": ["src/solvers/anderson_cd/mod.rs:coordinate_descent", "src/solvers/anderson_cd/mod.rs:anderson_accel", "src/estimators/estimators.rs:fit", "src/estimators/hyperparams.rs:check_ref"]}
{"id": "C64", "title": "Python compute_alpha_max is the null-model threshold of the Python estimators", "statement": "For any finite data with at least one sample and feature, sparseglm.utils.compute_alpha_max(X, y) (dense or sparse X, 1-d or 2-d targets) returns the smallest alpha for which the all-zero coefficients are optimal, and the same number as the Rust helpers. Fitting Lasso (1-d) or MultiTaskLasso (2-d) from Python with alpha at or above it gives coef_ identically zero whatever the other settings. Arrays without features or with mismatched sample counts raise ValueError; sum_squared is the sum of the squares of the entries in any memory layout.", "quantifier": "all finite designs (dense or CSC), targets, alpha >= alpha_max, iteration/epoch limits, positive p0 and K, tolerances >= 0, with or without acceleration", "why_tests_cant": "The regularization path of a user starts at alpha_max; a test can only compare a few data sets, and cannot show that no alpha below the returned value already gives the null model or that the two language layers compute the same threshold for all data.", "anchors": ["python/sparseglm/utils.py:6-14", "python/sparseglm/estimators.py:100-128", "python/sparseglm/estimators.py:180-219", "src/utils/mod.rs:63-94"]}
{"id": "C65", "title": "The coefficients are close to the only solution, whatever the settings", "statement": "If the objective is strongly convex (elastic net with l1_ratio < 1, or a least squares fit with linearly independent columns) there is exactly one optimal vector of coefficients. A fit which stops before max_iterations returns coefficients at Euclidean distance at most sqrt(p) * tol / mu from it, where mu is the strong convexity constant. Hence two fits with different settings (working set size, K, acceleration, iteration limits, tie breaking, dense or sparse storage) return coefficients which differ by at most sqrt(p) * (tol + tol') / mu, and the coefficients converge to the solution as tol decreases. The same holds for the multi-task Lasso, and in sufficiently precise floating point arithmetic with tol + epsilon.", "quantifier": "all designs (dense, sparse), targets, penalties and losses with a strongly convex objective, all settings and tolerances", "why_tests_cant": "users interpret coefficients (not objective values); a test compares a few problems with a reference solution and cannot bound the error for all data and settings", "anchors": ["src/solvers/anderson_cd/mod.rs:coordinate_descent", "src/solvers/anderson_bcd/mod.rs:block_coordinate_descent", "src/estimators/estimators.rs:fit"]}
{"id": "C66", "title": "make_correlated_data generates data as documented", "statement": "Python sparseglm.utils.make_correlated_data(n_samples, n_features, n_tasks, corr, snr, density, w_true): the generated coefficients have exactly int(density * n_features) nonzero features; the signal to noise ratio ||X w|| / ||y - X w|| equals snr exactly (no noise for snr = inf) and the noise is a multiple of draws which neither X nor w uses; features have mean 0, variance 1 and correlation corr^|j-j'| within a sample, different samples are uncorrelated; coefficients passed as w_true (in the documented shape) are used and returned; corr outside [0,1) or density outside (0,1] is a ValueError.", "quantifier": "all sizes, seeds (all normal draws, all results of choice), correlations in [0,1), ratios, densities in (0,1], given coefficients", "why_tests_cant": "the correlation is a statement about the distribution, not about a sample; the ratio and the density must hold for every seed and size", "anchors": ["python/sparseglm/utils.py:make_correlated_data"]}
{"id": "C67", "title": "In floating point, alpha = alpha_max gives exact zeros", "statement": "A fit of Lasso, ElasticNet or MCP whose l1 strength (alpha, resp. the computed product alpha * l1_ratio) is at least the value returned by compute_alpha_max(X, y) (compute_alpha_max_sparse for sparse designs), all in floating point with rounding errors, returns coefficients which are exactly zero; rounding never makes the threshold too small, and the result does not depend on the tolerance (even 0), the sorting routine or other settings.", "quantifier": "all sizes, dense and sparse designs, all floating point data whose products with the targets are finite, all valid settings", "why_tests_cant": "holds only if the solver and the helper make the same rounding errors for every input; a test uses particular data and compares with a tolerance", "anchors": ["src/utils/mod.rs:63-68,84-96", "src/datafits/single_task/mod.rs:67-95,123-157", "src/penalties/separable/mod.rs:78-81,140-146,221-229", "src/solvers/anderson_cd/mod.rs:265-280"]}
{"id": "C68", "title": "Number of iterations bounded by the data and the tolerance, also for the MCP", "statement": "Let mu and Lam be bounds of the step constants ||X_j||^2/n of nonzero columns (for the MCP mu + 1/gamma is the lower bound). A fit with tolerance tol > 0 needs at most 4 p (2 Lam + alpha (1 - l1_ratio))^2 F(0) / (mu tol^2) outer iterations (F(0): objective at zero; no l1_ratio term for Lasso, MCP, multi-task Lasso), whatever the working set size, K, acceleration, max_epochs or tie breaking. If max_iterations exceeds this number the fit does not panic and its coefficients satisfy the optimality conditions up to tol; for the MCP these are the conditions for a stationary point. For a Lasso with columns of norm sqrt(n) the number is 8 p ||y||^2 / (n tol^2).", "quantifier": "all designs (dense, sparse), targets, least squares and logistic loss, L1 / elastic net / MCP and multi-task L2,1 penalties, all valid settings whose stopping epochs are not extrapolation epochs; for the absence of panics, K <= min(ws_start_size, p) when acceleration is on (C26)", "why_tests_cant": "termination within a number of iterations for all data; nonconvex penalties have no minimum to compare with", "anchors": ["src/solvers/anderson_cd/mod.rs:coordinate_descent", "src/solvers/anderson_bcd/mod.rs:block_coordinate_descent", "src/estimators/estimators.rs:fit"]}
{"id": "C69", "title": "Predictions and objective are determined by the tolerance, even when coefficients are not unique", "statement": "For convex penalties kappa |z| <= pen(z) (kappa = alpha for the Lasso, alpha * l1_ratio for the elastic net): a fit with tolerance tol which stops before max_iterations has an objective at most tol * ||y||^2 / (n kappa) above the minimum (squared loss; tol * 2 F(0) / kappa for the logistic loss). Predictions of two such fits, with whatever settings, tie breaking and storage formats, differ by at most sqrt((tol + tol') ||y||^2 / kappa); the distance to the predictions of any minimiser is at most sqrt(tol ||y||^2 / kappa). All minimisers make the same predictions. Same for the multi-task Lasso, for floating point arithmetic up to errors which vanish with the precision, and for the Lasso estimator with an explicit number of iterations.", "quantifier": "all designs (also with duplicated or linearly dependent columns, p > n), targets, alpha > 0, tolerances, settings, sorting routines", "why_tests_cant": "coefficients are not unique for p > n or repeated features, so results of runs cannot be compared; the bound is over all data and settings", "anchors": ["src/solvers/anderson_cd/mod.rs:coordinate_descent", "src/solvers/anderson_bcd/mod.rs:block_coordinate_descent", "src/estimators/estimators.rs:fit"]}
{"id": "C70", "title": "Selected features: exact zeros, signs and support", "statement": "Squared loss, Lasso or elastic net with threshold kappa = alpha (alpha * l1_ratio), fit with tolerance tol which stops before max_iterations. (a) A feature with nonzero coefficient has a correlation |X_j^T (y - X w)|/n of at least kappa - tol with the residual. (b) If at a minimiser this correlation is below kappa by the margin sqrt(||X_j||^2 tol ||y||^2 / kappa)/n + tol, the returned coefficient is exactly zero. (c) If the minimiser is unique with curvature mu, its coefficients larger than sqrt(p) tol / mu are returned with their sign. (d) Hence if no zero coefficient of the minimiser attains the threshold, all sufficiently small tolerances give exactly its support and signs. (b) also for rows of the multi-task Lasso, and in floating point (exact zeros in spite of rounding errors).", "quantifier": "all designs, targets, strengths, settings, tie breaking", "why_tests_cant": "exact support identification over all data sets and settings; a test sees one support", "anchors": ["src/solvers/anderson_cd/mod.rs:coordinate_descent", "src/solvers/anderson_bcd/mod.rs:block_coordinate_descent", "src/penalties/separable/mod.rs:subdiff_distance,prox_op", "src/penalties/block_separable/mod.rs:subdiff_distance,prox_op"]}
{"id": "C71", "title": "Regularisation path: monotone penalty and loss, continuous predictions", "statement": "For two fits with strengths alpha, alpha' (Lasso, elastic net with equal l1_ratio; squared or logistic loss) and tolerances tol, tol' which stop before max_iterations: a larger strength gives a smaller penalty term (l1 norm, without the factor alpha) and a larger training loss, up to explicit multiples of the tolerances; predictions (squared loss) satisfy ||X w - X w'||^2 <= ((tol + tol')/l1_ratio + (alpha' - alpha)/2) ||y||^2 / alpha for alpha <= alpha'. Monotonicity also for the multi-task Lasso.", "quantifier": "all designs, targets, pairs of strengths, tolerances and settings", "why_tests_cant": "relates pairs of runs with arbitrary strengths; coefficients themselves need not be unique or monotone", "anchors": ["src/solvers/anderson_cd/mod.rs:coordinate_descent", "src/solvers/anderson_bcd/mod.rs:block_coordinate_descent", "src/penalties/separable/mod.rs:subdiff_distance,prox_op", "src/penalties/block_separable/mod.rs:subdiff_distance,prox_op"]}
{"id": "C72", "title": "Elastic net: similar features get similar coefficients", "statement": "For an elastic net fit (squared loss) with tolerance tol which stops before max_iterations, alpha (1 - l1_ratio) |w_i - w_j| <= ||X_i - X_j|| ||y|| / n + 2 tol for all features i, j; the coefficients of identical features differ by at most 2 tol / (alpha (1 - l1_ratio)), although coordinate descent updates them one after the other. Also in floating point up to errors which vanish with the precision.", "quantifier": "all designs, targets, alpha, l1_ratio, tolerances, settings, pairs of features", "why_tests_cant": "the sequential updates treat identical features differently; the bound is over all data", "anchors": ["src/solvers/anderson_cd/mod.rs:coordinate_descent", "src/solvers/anderson_bcd/mod.rs:block_coordinate_descent", "src/penalties/separable/mod.rs:subdiff_distance,prox_op", "src/penalties/block_separable/mod.rs:subdiff_distance,prox_op"]}
{"id": "C73", "title": "Error bounds in noisy linear models", "statement": "y = X beta + noise, l = max_j |X_j^T noise|/n. A Lasso fit with tolerance tol which stops before max_iterations satisfies ||X(w - beta)||^2/n <= 2 alpha ||beta||_1 if l + tol <= alpha; if 2 (l + tol) <= alpha, beta has s nonzero coefficients and the design satisfies the restricted eigenvalue condition with constant psi, then ||X(w - beta)||^2/n <= 9/4 alpha^2 s/psi and ||w - beta||_1 <= 6 alpha s/psi, so that coefficients of beta larger than this are selected with their sign. Same for the multi-task Lasso with row norms; the second also in floating point with sufficient precision.", "quantifier": "all designs, coefficients, noise vectors, strengths, settings", "why_tests_cant": "statistical guarantee for all designs and noise; usually proved for exact minimisers, here for what the solver returns", "anchors": ["src/solvers/anderson_cd/mod.rs:coordinate_descent", "src/solvers/anderson_bcd/mod.rs:block_coordinate_descent", "src/penalties/separable/mod.rs:subdiff_distance,prox_op", "src/penalties/block_separable/mod.rs:subdiff_distance,prox_op"]}
{"id": "C74", "title": "MCP fits: global minimiser when the design is well conditioned, no bias for large coefficients", "statement": "Least squares with the MCP penalty, fit with tolerance tol which stops before max_iterations. (a) If c ||d||^2 <= ||X d||^2 / n for all d with c >= 1/gamma, the objective exceeds that of any other coefficients u by at most tol * ||w - u||_1; with c > 1/gamma there is exactly one minimiser, the coefficients are within sqrt(p) tol / (c - 1/gamma) of it, and two fits with different settings, tie breaking or storage differ by at most sqrt(p) (tol + tol')/(c - 1/gamma), although the penalty is not convex. MCPEstimator::fit with valid parameters and an explicit number of iterations reaches this. (b) For every design: a coefficient of absolute value >= gamma * alpha is not shrunk (|X_j^T (y - X w)|/n <= tol), smaller nonzero ones have residual correlation sign(w_j) (alpha - |w_j|/gamma) up to tol, zero ones at most alpha + tol.", "quantifier": "all designs (dense or CSC), targets, alpha >= 0, gamma > 0 (gamma >= 1 for the estimator), tolerances, solver settings and tie breaking; exact arithmetic", "why_tests_cant": "Global optimality among all coefficient vectors cannot be observed by running the code; it is a statement on uncountably many competitors for a nonconvex objective.", "anchors": ["src/penalties/separable/mod.rs:MCP", "src/solvers/anderson_cd/mod.rs", "src/solvers/impl_solver.rs", "src/estimators/estimators.rs:MCPEstimator::fit"]}
{"id": "C75", "title": "Orthogonal designs: the fits are soft and firm thresholding", "statement": "If the columns of X are orthogonal, with L_j = ||X_j||^2/n > 0 (> 1/gamma for the MCP) and z_j = X_j^T y / n, a fit with tolerance tol which stops before max_iterations returns, feature by feature, up to tol / L_j (tol / (L_j - 1/gamma) for the MCP) the textbook solution: soft(z_j, alpha) / L_j (Lasso), soft(z_j, alpha * l1_ratio) / (L_j + alpha (1 - l1_ratio)) (elastic net), firm thresholding (MCP), block soft thresholding of the rows (multi-task Lasso). Coefficients with |z_j| <= threshold - tol are exactly zero. Lasso::fit on columns of norm sqrt(n) reaches this in 8 p ||y||^2 / (n tol^2) iterations; the same holds in floating point with sufficient precision.", "quantifier": "all designs with orthogonal columns (dense or CSC), targets, strengths, solver settings and tie breaking; exact arithmetic, and every sufficiently precise floating point format (Lasso, elastic net)", "why_tests_cant": "The closed form holds for every orthogonal design and all settings of working sets and acceleration; tests compare a few designs.", "anchors": ["src/penalties/separable/mod.rs", "src/penalties/block_separable/mod.rs", "src/solvers/impl_solver.rs", "src/estimators/estimators.rs"]}
{"id": "C76", "title": "Least-squares fits depend on the data only through the Gram matrix and the correlations", "statement": "Two datasets, possibly with different numbers of samples and different storage, for which X^T X / n and X^T y / n agree get exactly the same fit (coefficients, or panic) from the least-squares estimators (Lasso, ElasticNet, MCP, L0.5 and the multi-task ones) with the same settings. Consequences: a constant added to the targets does not matter when the columns are centred; an orthogonal transformation of samples and targets does not matter; if both statistics are multiplied by beta, multiplying the penalty strength and the tolerance by beta gives the same coefficients (single task).", "quantifier": "all pairs of datasets with equal statistics, all settings including acceleration and tie breaking; exact arithmetic", "why_tests_cant": "An equality of whole runs over all pairs of datasets with equal statistics.", "anchors": ["src/datafits/single_task/mod.rs:Quadratic", "src/datafits/multi_task/mod.rs:QuadraticMultiTask", "src/solvers/impl_solver.rs", "src/solvers/anderson_cd/mod.rs", "src/solvers/anderson_bcd/mod.rs", "src/estimators/estimators.rs"]}
{"id": "C77", "title": "The elastic net is a Lasso on data with additional ridge samples", "statement": "For designs without zero columns, ElasticNet::fit with alpha and l1_ratio = rho on (X, y) returns exactly what Lasso::fit returns on the n + p samples [X; sqrt(n alpha (1-rho)) I] with targets [y; 0], strength alpha * rho * n/(n+p), tolerance tol * n/(n+p) and the same other settings.", "quantifier": "all designs without zero columns (dense or CSC), targets, accepted parameters and solver settings; exact arithmetic", "why_tests_cant": "The statement equates two different programs (other steps, scores, thresholds) on all inputs.", "anchors": ["src/penalties/separable/mod.rs:L1PlusL2", "src/penalties/separable/mod.rs:L1", "src/estimators/estimators.rs:ElasticNet::fit", "src/solvers/impl_solver.rs"]}
{"id": "C78", "title": "Intercepts can be fitted by centring the data", "statement": "The estimators have no intercept. Fit the centred features and take b = mean(y) - mean(X) w: the objective with intercept, ||y - X w - b||^2/(2n) + penalty, exceeds that of any other coefficients u and intercept b' by at most tol * ||w - u||_1 (Lasso, elastic net; multi-task Lasso with one intercept per task). Whether the targets are centred as well does not change the coefficients. If the centred problem is strongly convex with modulus mu, w is within sqrt(p) tol / mu of the best coefficients. The same holds in floating point with sufficient precision, up to any eps.", "quantifier": "all designs, targets, strengths, settings and tie breaking with a fit which stops before max_iterations; exact arithmetic and sufficiently precise floats", "why_tests_cant": "Optimality over all intercepts and coefficients is not observable by running fits.", "anchors": ["src/solvers/impl_solver.rs", "src/estimators/estimators.rs", "src/penalties/separable/mod.rs"]}
{"id": "C79", "title": "Unselected features may be removed, features reordered, irrelevant ones added", "statement": "Let a fit with tolerance tol stop before max_iterations. (a) The coefficients of a set of features which contains the selected ones are optimal, within tol * ||w - u||_1 of any u, for the dataset with these features only, in any order; a fit of that dataset (other settings, tolerance tol') returns them up to sqrt(q) (tol + tol')/mu under strong convexity, and always the same predictions up to (tol + tol') ||y||^2 / slope in squared distance. (b) Conversely, if a part of the features is fitted and the others have residual correlation at most slope + tol (alpha, alpha * l1_ratio), then padding with zeros is optimal within the tolerance for all features. Removal and refitting also for the multi-task Lasso; removal also in floating point.", "quantifier": "all designs, subsets and orders of the features, targets, strengths, settings, tie breaking; exact arithmetic, (a) also sufficiently precise floats", "why_tests_cant": "The working set order, ties and acceleration depend on the feature order; tests compare a few permutations.", "anchors": ["src/solvers/impl_solver.rs", "src/solvers/anderson_cd/mod.rs", "src/penalties/separable/mod.rs", "src/penalties/block_separable/mod.rs"]}
{"id": "C80", "title": "The optimality check in floating point certifies any coefficients, with explicit constants", "statement": "For least squares with the Lasso or the elastic net penalty, the maximal violation m that initialize, compute_extrapolated_fit and opt_cond_violation compute in floating point (f64, f32 or any arithmetic of relative precision e) at finite coefficients v of whatever origin is accurate both ways: m <= tol implies that each exact violation is at most tol + (100 + 4p) e R_j, and m <= tol whenever each exact violation is below tol by as much, where R_j = sum_i |X_ij| (sum_l |X_il v_l| + |y_i| + 1) + (alpha + 1)(|v_j| + 1). Hence the objective at v exceeds the objective at any u by at most sum_j (tol + (100 + 4p) e R_j) |v_j - u_j|. A solver run which prints fewer than max_iterations iterations returns coefficients and predictions which pass that check, in any arithmetic; if the check passes at zero, the run returns zero.", "quantifier": "all dense and canonical sparse designs, targets, strengths, coefficients of moderate size, tolerances, summation orders; f64 and f32; runs: any arithmetic at all", "why_tests_cant": "Tests compare a few results with stored values up to a tolerance chosen by hand; no test bounds the rounding error of the stopping criterion, which decides whether a fit is accepted.", "anchors": ["src/solvers/anderson_cd/mod.rs", "src/datafits/single_task/mod.rs", "src/datasets/impl_design_matrix.rs", "src/penalties/separable/mod.rs", "src/solvers/impl_solver.rs"]}
{"id": "C81", "title": "The logistic loss of finite predictions is finite and accurate", "statement": "Logistic::value, for finite labels y and finite predictions u whose exact loss is moderate, is a finite number close to mean(log(1 + exp(-y_i u_i))). False: the code evaluates exp(-y u) literally, so one sample misclassified with margin 1000 (f64) or 100 (f32) makes the value +inf although the exact loss is about 1000 or 100. What holds, in f64, f32 or any arithmetic of relative precision e: if exp(-y_i u_i) <= 1/(4e) for every sample, the value is finite and off by at most (80 + 4n) e mean(|y_i u_i| + 1).", "quantifier": "all n >= 1 with 8 n e <= 1, all finite labels and predictions with 64 e sum(|y_i u_i| + 1) <= 1, dense and CSC designs; IEEE 754 binary64/binary32 with correctly rounded exp and ln, and any arithmetic with the laws Precise, PreciseExp", "why_tests_cant": "tests evaluate the loss at a few predictions of size one; neither overflow at large margins nor a bound of the error for all inputs can be settled by examples", "anchors": ["src/datafits/single_task/mod.rs:216-224", "src/datafits/single_task/mod.rs:282-290"]}
{"id": "C82", "title": "The optimality check of logistic regression in floating point certifies any coefficients, also where the exponential overflows", "statement": "For logistic regression with the Lasso or the elastic net penalty, the maximal violation m that initialize, compute_extrapolated_fit and opt_cond_violation compute in floating point (f64, f32 or any arithmetic of relative precision e with exponentials) at finite coefficients v of whatever origin is accurate both ways: m <= tol implies that each exact violation is at most tol + (200 + 4p) e R_j, and m <= tol whenever each exact violation is below tol by as much, where R_j = sum_i (|X_ij| (|y_i| + 1)^2 (sum_l |X_il v_l| + 1) + 1) + (alpha + 1)(|v_j| + 1). Hence the objective at v exceeds the objective at any u by at most sum_j (tol + (200 + 4p) e R_j) |v_j - u_j|. A solver run which prints fewer than max_iterations iterations returns coefficients with the same kind of certificate. The computed logistic function is finite and off by at most 10 e at every finite number, although exp overflows and although the computed loss (C81) is then infinite.", "quantifier": "all dense and canonical sparse designs, labels, strengths, coefficients of moderate size, tolerances, summation orders; f64 and f32", "why_tests_cant": "Tests compare a few fits with stored values up to a hand-picked tolerance; no test bounds the rounding error of the stopping criterion or covers margins where exp overflows.", "anchors": ["src/datafits/single_task/mod.rs:228-246", "src/datafits/single_task/mod.rs:294-312", "src/utils/mod.rs:170-173", "src/penalties/separable/mod.rs", "src/solvers/impl_solver.rs", "src/solvers/anderson_cd/mod.rs"]}
{"id": "C83", "title": "The multi-task Lasso optimality check in floating point is accurate for coefficients of every magnitude", "statement": "For the multi-task Lasso, the maximal violation m that initialize and opt_cond_violation compute in floating point (f64, f32 or any arithmetic of relative precision e) at finite coefficients V and predictions Z is accurate both ways: m <= tol implies that each exact violation is at most tol + (16T + 65) e S_j, and m <= tol whenever each exact violation is below tol by as much, where T is the number of tasks and S_j = sum_t (sum_i |X_ij| (|Z_it| + |Y_it|) + 1) + (T + 1)(alpha + 1). Hence the objective at V exceeds the objective at any U by at most sum_j (tol + drift_j + (16T + 65) e S_j) ||V_j - U_j||, where drift_j measures the difference of Z and X V. A solver run which prints fewer than max_iterations iterations returns coefficients and predictions which pass that check, in any arithmetic; if the check passes at zero, the run returns zero.", "quantifier": "all dense and canonical sparse designs, targets, strengths, finite coefficients, tolerances, summation orders, orders and fusings of matrix products; f64 and f32", "why_tests_cant": "Tests compare a few fits with stored values; no test bounds the rounding error of row norms or covers coefficients whose squares underflow.", "anchors": ["src/penalties/block_separable/mod.rs:52-101", "src/datafits/multi_task/mod.rs", "src/solvers/anderson_bcd/mod.rs", "src/solvers/impl_solver.rs"]}
{"id": "C84", "title": "Python estimator objects have no hidden state and follow the scikit-learn protocol", "statement": "What fit does with a Python estimator object depends only on the class, on the parameters last assigned (by the constructor or by set_params) and on the data: whatever was done with the object before (other fits, fits which raised, other parameter values), the same exception is raised or the same coefficients are computed as by any other object with these parameters. A fit which raises changes nothing; a fit which succeeds changes only coef_, and repeating it changes nothing. set_params(**get_params()) changes nothing, an unknown name is a ValueError. An object which can be fitted can be cloned by scikit-learn's clone, and the clone is unfitted, has the same parameters and fits to the same coefficients.", "quantifier": "all six classes, all sequences of set_params and fit calls, all argument types, all data", "why_tests_cant": "Tests fit an object once; hidden state shows up only in particular sequences of calls, including calls which raise, and the clone requirement quantifies over all parameter values.", "anchors": ["python/sparseglm/estimators.py:20-49", "python/sparseglm/estimators.py:90-128", "python/sparseglm/estimators.py:265-308", "python/sparseglm/estimators.py:452-497"]}
{"id": "C85", "title": "In floating point, a multi-task Lasso fit returns finite coefficients, stops, and reaches the minimum", "statement": "With rounding, overflow, underflow and NaN taken into account, and data and alpha stored with rounding, a multi-task Lasso fit whose arithmetic is precise enough for the problem does not panic and returns a finite coefficient matrix whose exact objective exceeds that of zero by at most epsilon. For every positive tolerance there is a number of iterations, independent of the number format, after which it has stopped; the coefficients then satisfy the optimality conditions of the exact problem up to tolerance + epsilon, every accuracy of the objective is reached, and if the design has full column rank the coefficients are within sqrt(p) (tolerance + epsilon) / curvature of the exact minimiser. The needed laws of arithmetic hold of IEEE 754 f64 and f32.", "quantifier": "all designs (dense, canonical sparse), target matrices, alpha > 0, settings accepted by the crate (acceleration included) whose last epoch is not extrapolated; all arithmetics with the listed laws and sufficient precision, matrix products summed in any order and with or without fused multiply-add", "why_tests_cant": "a claim about all problems and formats; block soft-thresholding divides by row norms whose squares may underflow, and tests in binary64 do not reach such rows or tell slow convergence from stalling", "anchors": ["src/solvers/anderson_bcd/mod.rs:block_coordinate_descent", "src/solvers/anderson_bcd/mod.rs:anderson_accel", "src/datafits/multi_task/mod.rs:QuadraticMultiTask", "src/penalties/block_separable/mod.rs:L21", "src/estimators/estimators.rs:fit"]}
{"id": "C86", "title": "Multi-task MCP: an early exit certifies stationarity", "statement": "If a multi-task MCP fit stops before max_iterations, every coefficient row is stationary up to the tolerance. (Violated: the violation score of a row whose norm lies strictly between 0 and alpha*gamma ignores the data. A run may stop after one iteration at a point violating the optimality condition by 10/3 with tolerance 1/4; and a run which has reached the unique exact minimiser in its first epoch may use up all iterations. Proved instead: rows which are zero or of norm at least alpha*gamma are stationary up to the tolerance, and all other rows have norm at least alpha*gamma - gamma*tol.)", "quantifier": "all designs, targets, alpha > 0, gamma > 1, tolerances and solver settings", "why_tests_cant": "quantifies over all runs; stationarity involves subdifferentials, so no finite set of runs decides it", "anchors": ["src/penalties/block_separable/mod.rs:BlockMCP::subdiff_distance", "src/solvers/anderson_bcd/mod.rs:block_coordinate_descent"]}
{"id": "C87", "title": "All iterates but a bounded number are nearly stationary, even where the stopping test is wrong", "statement": "Call a point tau-stationary if, for every feature, minus the partial gradient of the loss is within tau of the subdifferential of the penalty at its coefficient (its row, for several tasks). Of the coefficients that the same call returns with max_iterations = 0, 1, 2, ..., up to the number of iterations printed, at most 4 p (2 Lmax + b)^2 F(0) / (mu tau^2) are not tau-stationary: F(0) is the objective at zero, Lmax the largest and mu the smallest nonzero squared column norm over n_samples (for the logistic loss, over 4 n_samples; for the MCP, minus 1/gamma, which has to be positive), b = alpha (1 - l1_ratio) for the elastic net and 0 otherwise. Hence if more iterations are run than that, one of the calls with max_iterations up to the bound returns a tau-stationary point. This holds for every tau > 0 and every tolerance, also for the multi-task MCP and the multi-task elastic net, whose violation scores are wrong so that the solver may never stop (C31, C86). For the multi-task elastic net with alpha * l1_ratio < 1 the initial working set has to hold all features. Exact arithmetic; least squares and logistic loss; all penalties but the L0.5 penalty.", "quantifier": "all designs with distinct sparse indices, targets, penalties (single-task: Lasso, elastic net, MCP; multi-task: L21, elastic net, MCP) with valid parameters, tau > 0, and all solver settings with at least one epoch, a nonempty working set and no extrapolation in the epochs where the inner loop may stop (true of the defaults)", "why_tests_cant": "a test sees one data set, one tolerance and the last iterate; the claim bounds the number of bad iterates over all data, settings and accuracies", "anchors": ["src/solvers/anderson_cd/mod.rs", "src/solvers/anderson_bcd/mod.rs"]}
{"id": "C88", "title": "Linear relations between tasks are inherited by the coefficients", "statement": "If a linear combination of the tasks vanishes on all samples (sum over t of c_t Y[i, t] = 0 for every sample i), then the same combination of the columns of coefficients vanishes (sum over t of c_t W[j, t] = 0 for every feature j), and so does that of the predictions on any data. In particular a task whose targets are all zero gets zero coefficients, tasks with equal targets get equal coefficients, and proportional targets give proportional coefficients. This holds for whatever settings of the solver, with and without acceleration, converged or not. Exact arithmetic; multi-task Lasso, elastic net and MCP.", "quantifier": "all designs, dense and sparse, all targets and linear relations between the tasks, all valid penalty parameters and all solver settings", "why_tests_cant": "infinitely many relations and data sets; extrapolated points are combinations of stored iterates over a varying working set, for which an invariant of the buffer is needed", "anchors": ["src/solvers/anderson_bcd/mod.rs", "src/penalties/block_separable/mod.rs"]}
{"id": "C89", "title": "Fits of strongly convex objectives converge linearly; the number of iterations is logarithmic in the tolerance", "statement": "If the objective is strongly convex (least squares with linearly independent columns, or any elastic net with alpha (1 - l1_ratio) > 0, also logistic; for the MCP, curvature of the loss above 1/gamma), then for every i up to the number of printed iterations, the call with max_iterations = i returns coefficients whose objective exceeds the objective of any other coefficients w by at most (kappa/(kappa+1))^(i/2) times the excess of the objective at zero, and whose squared distance to the minimiser decreases at the same rate; kappa = p^2 (2 Lambda + m)^2 / (mu sigma) depends on the design and on the penalty only. Several tasks: the same for all penalties, also where the stopping test is wrong (C31, C86). With correct scores at most 3 + 2 (kappa + 1) log(1 + 2 p (2 Lambda + m)^2 F(0) / (mu tol^2)) iterations are printed, and a run with larger max_iterations stops.", "quantifier": "all dense and canonical sparse designs, targets, labels, valid penalty parameters, working set sizes, tie breaking, solver settings whose last epoch of an iteration is not an extrapolation; exact arithmetic", "why_tests_cant": "Tests look at one result after convergence; a rate of convergence is a statement about all iterates of all problems.", "anchors": ["src/solvers/anderson_cd/mod.rs", "src/solvers/anderson_bcd/mod.rs"]}
{"id": "C90", "title": "Fits are stable under changed targets and replaced samples", "statement": "If the targets of a finished least squares fit (Lasso, elastic net, multi-task Lasso) are changed from y to y', the predictions change by at most |y - y'| in Euclidean norm, up to a term proportional to the tolerance: |X v - X v'|^2 <= |y - y'|^2 + (tol + tol') (|y|^2 + |y'|^2) / kappa, where kappa is the strength of the l1 part. For a strongly convex objective (modulus sigma; also the MCP with enough curvature) the coefficients change by at most (|X^T (y - y') / n| + sqrt(p) (tol + tol')) / sigma. If one sample is replaced by any other (least squares or logistic), the coefficients change by at most the sum of |slope of the loss| * |features| of the old and the new sample over n, plus sqrt(p) (tol + tol'), over sigma. Hence for logistic regression with an elastic net penalty and samples of length at most R, the coefficients change by at most (2 R / n + sqrt(p) (tol + tol')) / (alpha (1 - l1_ratio)), and the loss at any sample of length at most R by at most R times that (uniform stability).", "quantifier": "all dense and sparse designs, targets and labels in [-1, 1], valid penalty parameters, solver settings of both fits, ways to break ties, for fits which stop before max_iterations; exact arithmetic", "why_tests_cant": "Tests fit fixed data sets; how much a result can move when the data change is a statement about all pairs of data sets.", "anchors": ["src/solvers/anderson_cd/mod.rs", "src/solvers/anderson_bcd/mod.rs", "src/datafits/single_task/mod.rs", "src/datafits/multi_task/mod.rs"]}
{"id": "C91", "title": "A fit is null exactly when alpha + tolerance reaches alpha_max", "statement": "A Lasso fit returns all zeros if and only if compute_alpha_max(X, y) <= alpha + tolerance (multi-task Lasso: compute_alpha_max_mtl). The same threshold on the largest correlation of a feature with the targets holds for the elastic net (alpha * l1_ratio in place of alpha), the MCP and block MCP (if the curvature of the penalty is smaller than that of the loss) and, with half the correlation, for logistic regression. Otherwise the objective of the result is strictly smaller than at zero, by an explicit multiple of the squared excess of the correlations. The block elastic net tests squared norms instead: it is null if all squared norms are at most alpha * l1_ratio + tolerance.", "quantifier": "all dense and sparse designs, targets, labels in [-1, 1], valid penalty parameters, tolerances >= 0, positive max_iterations, max_epochs and working set sizes, ways to break ties, with or without acceleration; block elastic net: alpha * l1_ratio >= 1 or all features in the working set; exact arithmetic", "why_tests_cant": "Tests try a few values of alpha on fixed data; an equivalence at the exact threshold is about all alphas and all data.", "anchors": ["src/utils/mod.rs", "src/solvers/anderson_cd/mod.rs", "src/solvers/anderson_bcd/mod.rs", "src/estimators/hyperparams.rs"]}
{"id": "C92", "title": "MCP fits in floating point", "statement": "Run in floating point instead of exact arithmetic, a fit with the MCP penalty (least squares or logistic loss, dense or sparse design, extrapolation switched off, gamma times every non-zero step constant larger than 1) returns finite coefficients once the precision is high enough for the problem: their objective is at most the objective of zero coefficients plus any chosen epsilon, and if the solver stops before max_iterations the coefficients are stationary up to the tolerance plus epsilon. It does stop: for every positive tolerance there is a number of iterations, the same for all formats, within which the stopping test succeeds. In particular no sequence of rounding errors makes such a fit panic, return NaN, cycle or end above the null model.", "quantifier": "all data sets with canonical storage, all alpha > 0, gamma > 0 satisfying the step condition, all settings with extrapolation off, all floating point formats of sufficient precision, all stored versions of the data", "why_tests_cant": "The proximal step of the MCP is the least stable one of the library (it divides by 1 - step/gamma and has two thresholds); errors accumulate over all updates of a run, and a test can only look at a few data sets in f32 and f64.", "anchors": ["src/penalties/separable/mod.rs", "src/solvers/anderson_cd/mod.rs", "src/estimators/hyperparams.rs"]}
{"id": "C93", "title": "Bounds which every fit satisfies", "statement": "The coefficients returned by the solver are bounded by the data and alpha alone. At any iteration limit: the residual sum of squares plus 2n times the penalty is at most the sum of squares of the targets; the logistic loss plus the penalty is at most log 2; the l1 norm of the coefficients is at most ||y||^2/(2 n alpha l1_ratio) for least squares and log 2/(alpha l1_ratio) for logistic regression (also with separable classes); an MCP fit has at most ||y||^2/(n gamma alpha^2) coefficients beyond gamma*alpha, i.e. coefficients which are not shrunk. If the solver stopped before max_iterations: the scalar product of predictions and residuals over n equals the penalty's pull on the coefficients (alpha times the l1 norm for the Lasso), up to the tolerance times the l1 norm; so for a tolerance at most alpha*l1_ratio predictions and residuals have a non-negative scalar product and the sums of squares of predictions and of residuals together do not exceed that of the targets. For logistic regression the same with the margins weighted by their misclassification probability; for several tasks with the row norms.", "quantifier": "all data sets with canonical storage, penalties L1, elastic net, MCP (with the step condition for the first part), both losses, several tasks, all solver settings and orders of ties", "why_tests_cant": "bounds on every possible data set and every setting; tests compare with a few reference fits", "anchors": ["src/solvers/anderson_cd/mod.rs", "src/solvers/anderson_bcd/mod.rs", "src/penalties/separable/mod.rs", "src/penalties/block_separable/mod.rs", "src/datafits/single_task/mod.rs"]}
{"id": "C94", "title": "The random data generators", "statement": "generate_random_data(n, p) and generate_random_data_mtl (public helpers, used by the examples, the estimator tests and the benchmark) return features and targets of the requested shapes, and the targets are those of a random linear model plus noise which is not determined by the features: every pair of features and targets is a possible outcome. (False: the generator is seeded anew for features, coefficients and noise, so the noise is bit for bit the first column of the features and the targets are an exact linear function of them; in the multi-task case the noise of sample i is row i of the coefficients.)", "quantifier": "all numbers of samples, features and tasks, all streams of draws of the random number generator", "why_tests_cant": "a statement about all seeds and sizes; a test sees one sample, and data which look random", "anchors": ["src/utils/mod.rs:generate_random_data", "src/utils/mod.rs:generate_random_data_mtl", "src/utils/mod.rs:fill_random_vector", "examples/lasso.rs", "benches/bench_lasso.rs"]}
{"id": "C95", "title": "MCP fits find local minima", "statement": "As with the convex penalties, a fit of MCPEstimator which stops is a global minimum of its objective up to the tolerance: no other coefficients have an objective smaller by more than tolerance times their l1 distance. (False: with features e1, e2, e1+e2, targets 7.9 and 4.1, alpha 1 and the default gamma 3, the sum is selected first and every fit stops there, at 3.305, although the first two features reach 3. True: the coefficients are better than all others in directions in which the loss is curved by at least 1/gamma; in particular no single coefficient can be improved.)", "quantifier": "all designs (dense and sparse), targets, alpha, gamma, working sets, epochs, tie breaking, tolerances; the counterexample holds for all of the last four", "why_tests_cant": "a test of the optimality conditions passes at every local minimum; that a fit is globally optimal is a statement about all coefficients", "anchors": ["src/estimators/estimators.rs:MCPEstimator", "src/solvers/anderson_cd/mod.rs", "src/penalties/separable/mod.rs:MCP"]}
{"id": "C96", "title": "Settings without effect", "statement": "Settings which are documented to matter only under a condition have no effect otherwise: without acceleration K does not change anything; a working set size above the number of features is the same as the number of features; with at most K epochs per iteration acceleration does not change anything (and such runs do not panic, however few features there are, in contrast to C26); without iterations or without epochs all coefficients are zero. The first two hold for the printed lines too and for all six estimators.", "quantifier": "all scalar types and data (with NaN and infinities), all settings, all datafits and penalties; user-defined ones too for K, the working set and runs without updates; shape-consistent data for acceleration", "why_tests_cant": "tests compare two values of a setting on one dataset; the claim is exact equality of all outcomes, panics included, for all values", "anchors": ["src/solvers/anderson_cd/mod.rs:coordinate_descent", "src/solvers/anderson_bcd/mod.rs:block_coordinate_descent", "src/solvers/impl_solver.rs", "src/estimators/hyperparams.rs"]}
{"id": "C97", "title": "Logistic regression: probabilities, classes and zeros do not depend on the settings", "statement": "Two fits of logistic regression with an l1 or elastic net penalty which stop before max_iterations predict almost the same probabilities, whatever their settings, tie breaking and storage format, even if their coefficients differ: the squared distance is at most n (tolerance + tolerance') log 2 / (2 kappa), kappa = alpha or alpha l1_ratio. All minimisers make the same predictions. Samples which the minimiser does not find close to undecided are classified alike; features below the threshold by an explicit margin have coefficients which are exactly zero; the probabilities are continuous in alpha. The same in floating point.", "quantifier": "all designs (dense and sparse), labels +-1, alpha, l1_ratio > 0, settings, tolerances; in floating point all formats which are precise enough", "why_tests_cant": "a bound on all fits for all data; a test compares two settings on one dataset", "anchors": ["src/datafits/single_task/mod.rs:Logistic", "src/solvers/anderson_cd/mod.rs:coordinate_descent", "src/penalties/separable/mod.rs"]}
{"id": "C98", "title": "The example programs", "statement": "For all random numbers, the programs in examples/ for the Lasso, the elastic net and the multi-task Lasso run to completion: the coefficients of the solver called directly and those of the estimator, with the same regularisation, agree entry by entry up to 1e-4 as the programs assert. The coefficients of the sparse logistic regression example are at least as good as zero.", "quantifier": "All sequences of (real) random numbers drawn by the data generators; the data sizes and regularisations of the examples", "why_tests_cant": "The programs run with one fixed seed: a passing run says nothing about other random numbers (another seed, or another version of the generator), and the failing ones are rare.", "anchors": ["examples/lasso.rs:main", "examples/elastic_net.rs:main", "examples/multi_task_lasso.rs:main", "examples/sparse_logistic_regression.rs:main", "src/utils/mod.rs:assert_array_all_close", "src/utils/mod.rs:assert_array2d_all_close", "src/utils/mod.rs:generate_random_data", "src/solvers/impl_solver.rs:Solver::new", "src/estimators/hyperparams.rs:LassoParams::new"]}
{"id": "C99", "title": "Any GLM: datafits and penalties supplied by the user", "statement": "Let a user implement the DesignMatrix, Datafit and Penalty traits so that, once initialized, the methods return on finite data the value and partial derivatives of a differentiable convex nonnegative loss f of the predictions, coordinate-wise Lipschitz constants of these derivatives (step_size), the value, the proximal operator and the distances to the subdifferential of a penalty phi. Then Solver::solve returns finite coefficients (without acceleration, or with 0 < K <= min(ws_start_size, p)); their objective is not larger than that of zero coefficients; a call which stops before max_iterations returns a point whose violation is at most tolerance for every feature, and, for convex phi, an objective at most tolerance * ||v - w||_1 above that of every w. For phi minimal at 0 and convex up to a quadratic, the number of iterations is bounded by 4 p (2 max L + b)^2 F(0) / (mu tolerance^2). The datafits and penalties of the library other than L0.5 meet these requirements.", "quantifier": "every design storage, datafit and penalty implementation meeting the contract, every data size, all settings; exact arithmetic", "why_tests_cant": "tests run the solver with the datafits and penalties of the library on a few data sets; the promise of the README ('any sparse GLM') quantifies over all implementations of the traits", "anchors": ["README.md", "src/solvers/impl_solver.rs:Solver::solve", "src/solvers/anderson_cd/mod.rs:coordinate_descent", "src/datafits/single_task/mod.rs:Datafit", "src/penalties/separable/mod.rs:Penalty", "src/datasets/mod.rs:DesignMatrix"]}
{"id": "C100", "title": "step_size as documented", "statement": "A user who implements Datafit and lets step_size return what the documentation of the trait asks for (the inverse of the Lipschitz constant of each coordinate) gets from Solver::solve coefficients whose objective is not larger than that of zero coefficients. (False: the solver divides by the returned numbers and needs the Lipschitz constants themselves; no line search is performed. True if no Lipschitz constant exceeds 1. Whatever nonnegative numbers step_size returns, the call returns, and a call which stops before max_iterations is stationary up to the tolerance.)", "quantifier": "every datafit, penalty and design storage meeting the contract but for step_size, all data sizes and settings; exact arithmetic", "why_tests_cant": "the tests only use the datafits of the library, which do not follow the documentation of their own trait", "anchors": ["src/datafits/single_task/mod.rs:Datafit::step_size", "src/solvers/anderson_cd/mod.rs:coordinate_descent"]}
{"id": "C101", "title": "Any multi-task GLM: datafits and penalties supplied by the user", "statement": "Let a user implement the DesignMatrix, MultiTaskDatafit and MultiTaskPenalty traits so that, once initialized, the methods return on finite data the value and the gradients with respect to the rows of the coefficients of a differentiable convex nonnegative loss f of the predictions X W, row-wise Lipschitz constants of these gradients (step_size), the value, the proximal operator and the distances to the subdifferential of a penalty phi of the rows. Then Solver::solve_multi_task returns finite coefficients (without acceleration, or with 0 < K <= min(ws_start_size, p) times the number of tasks); their objective is not larger than that of zero coefficients; a call which stops before max_iterations returns a point whose violation is at most tolerance for every row, and, for convex phi, an objective at most tolerance * sum_j ||v_j - w_j|| above that of every w. For phi minimal at 0 and convex up to a quadratic, the number of iterations is bounded by 4 p (2 max L + b)^2 F(0) / (mu tolerance^2). The multi-task datafit of the library with the L2,1 penalty meets these requirements.", "quantifier": "every design storage, multi-task datafit and penalty implementation meeting the contract, every data size and number of tasks, all settings; exact arithmetic", "why_tests_cant": "tests run the solver with the datafits and penalties of the library on a few data sets; the claim quantifies over all implementations of the traits", "anchors": ["README.md", "src/solvers/impl_solver.rs:Solver", "src/solvers/anderson_bcd/mod.rs:block_coordinate_descent", "src/datafits/multi_task/mod.rs:MultiTaskDatafit", "src/penalties/block_separable/mod.rs:MultiTaskPenalty"]}
{"id": "C102", "title": "subdiff_distance as documented", "statement": "A penalty whose subdiff_distance returns, as its documentation says, the distances of the gradients of the datafit to the subdifferentials of the penalty, together with the other contracts of C99, makes Solver::solve stop only at stationary points (up to the tolerance). What is needed instead are the distances of the negative gradients; whatever finite scores the method returns, the call returns and its result is not worse than zero coefficients.", "quantifier": "every datafit, penalty and design storage meeting the contracts, every data size, all settings; exact arithmetic", "why_tests_cant": "the penalties of the library do not follow the documentation literally, so tests of the library never meet a penalty written after it", "anchors": ["src/penalties/separable/mod.rs:Penalty", "src/penalties/separable/mod.rs:subdiff_distance", "src/solvers/impl_solver.rs:Solver", "src/solvers/anderson_cd/mod.rs:coordinate_descent"]}
{"id": "C103", "title": "Constraints: penalties with infinite values", "statement": "Let a user implement the Penalty trait for a constraint: phi convex on an interval D containing 0, value() infinite if a coefficient lies outside D, prox() the constrained proximal operator, subdiff_distance() the distances to the subdifferentials of phi + indicator of D for coefficients in D; datafit and design as in C99. Then Solver::solve returns finite coefficients (without acceleration, or with 0 < K <= min(ws_start_size, p)) which all lie in D, whatever max_iterations, with an objective not larger than that of zero coefficients (extrapolated points which leave D are never kept). A call which stops before max_iterations is optimal among feasible coefficients: F(v) <= F(w) + tolerance * ||v - w||_1. If phi is bounded below on D and zero columns are optimal at 0, the number of iterations is bounded, so that enough of them suffice. If zero is not optimal for a zero column, no call stops early. In particular Quadratic with zero targets and the penalty -z on [0, C] solves the linear support vector machine: beta = X v / n is within p C tolerance of the minimum of the hinge loss objective.", "quantifier": "every design storage, datafit and constraint penalty meeting the contract, every data size, all settings; exact arithmetic", "why_tests_cant": "no constraint is among the penalties of the library (README lists box and dual SVM as planned), so no test runs one; feasibility after extrapolation and optimality are claims about all data", "anchors": ["README.md", "src/solvers/impl_solver.rs:Solver::solve", "src/solvers/anderson_cd/mod.rs:coordinate_descent", "src/penalties/separable/mod.rs:Penalty", "src/datafits/single_task/mod.rs:Datafit"]}
{"id": "C104", "title": "Constraints hold exactly in floating point", "statement": "Whatever the arithmetic (f64, f32), the data (also NaN and infinities), the datafit and the settings: if every number returned by the prox() of a penalty supplied by the user satisfies a constraint, zero satisfies it, and value() is infinite or NaN for coefficients which violate it, then all coefficients returned by Solver::solve satisfy it exactly; without acceleration the values do not matter. The same for Solver::solve_multi_task. In particular, in IEEE 754 arithmetic, a non-negativity penalty never yields negative or NaN coefficients and a box penalty only coefficients in [0, C].", "quantifier": "every scalar type, data set, datafit, sorting function and setting; every penalty meeting the two conditions; IEEE 754 formats for the two instances", "why_tests_cant": "a rounding error of one unit in the last place, or an accepted extrapolated point outside the constraint, occurs on particular data only", "anchors": ["src/solvers/anderson_cd/mod.rs:coordinate_descent", "src/solvers/anderson_bcd/mod.rs:block_coordinate_descent", "src/solvers/impl_solver.rs:Solver::solve", "src/penalties/separable/mod.rs:Penalty", "src/penalties/block_separable/mod.rs:MultiTaskPenalty"]}
{"id": "C105", "title": "Sample weights, feature weights and unpenalised features by transforming the data", "statement": "The library has neither sample weights nor feature weights nor unpenalised features. Users multiply row i of the design and target i by sqrt(s_i) and divide column j by c_j: a call (Quadratic; L1 or elastic net) on these data which stops before max_iterations yields, after division of the coefficients by c_j, an objective (1/2n) sum_i s_i (y_i - x_i w)^2 + sum_j phi(c_j w_j) at most tolerance * sum_j |c_j| |v_j/c_j - w_j| above that of every w; Lasso::fit reaches any accuracy for the weighted Lasso. The same for both kinds of weights in the multi-task Lasso and for feature weights in logistic regression. Integer sample weights, also in logistic regression, arise by listing sample i s_i times: the result is optimal for the mean of the losses weighted by s_i, up to the tolerance. For unpenalised features Z, users replace X and y by their residuals of least squares on Z: the coefficients v, with b - A v for Z, are optimal among all coefficients of X and Z up to the tolerance.", "quantifier": "every data set, all nonnegative sample weights, nonzero feature weights, every set of unpenalised features; both storage formats; all settings; exact arithmetic", "why_tests_cant": "equivalence of two optimisation problems for all data and weights", "anchors": ["src/estimators/estimators.rs:Lasso", "src/solvers/impl_solver.rs:Solver::solve", "src/datafits/single_task/mod.rs:Quadratic", "src/datafits/single_task/mod.rs:Logistic"]}
{"id": "C106", "title": "Labels 0 and 1 in logistic regression", "statement": "A user who passes the classes of a classification task to the Logistic datafit as labels 0 and 1 (the documentation does not say how classes are encoded, and the labels are accepted) gets a solution, up to the tolerance, of L1-penalised logistic regression for the two classes. This is false of the code: samples with label 0 contribute a constant. They are ignored, whatever their features; the result is that of the data without them with alpha and tolerance multiplied by n/m (m samples left); and with nonnegative features and tolerance below alpha no coefficient is negative, so that class 0 is never predicted. It holds for the labels 2y-1.", "quantifier": "every data set, both storage formats, labels 0 and 1, all settings, calls which stop before max_iterations; exact arithmetic", "why_tests_cant": "which optimisation problem the result solves, for all data; the call succeeds and the outputs look plausible", "anchors": ["src/datafits/single_task/mod.rs:Logistic", "src/solvers/impl_solver.rs:Solver::solve", "README.md"]}
{"id": "C107", "title": "Duality gap of the result; agreement with scikit-learn", "statement": "The tests and benchmarks compare coefficients with those of scikit-learn, which stops when the duality gap is at most tol*||y||^2. (1) The duality gap (of the scaled residuals, divided by n) of the result of a Lasso, ElasticNet (positive l1_ratio) or MultiTaskLasso call which stops before max_iterations is at most (tol/a + tol^2/(2a^2)) ||y||^2/n, with a the l1 strength; so tolerance = a*t/2 meets the criterion of the other library with tol = t, and Lasso::fit reaches it; in floating point up to the precision. (2) The predictions of the result agree with those of any coefficients of small duality gap, with explicit constants. (3) The claim asserted by the tests, coefficients within atol 1e-6 at tolerances 1e-10, is false for some data (two equal features), and holds if the problem is curved and the tolerances are small against the curvature.", "quantifier": "every data set, both storage formats, all settings, coefficients of any other solver", "why_tests_cant": "universally quantified optimality statement; the tests compare on one random data set", "anchors": ["python/sparseglm/tests/test_estimators.py", "python/sparseglm/benchmarks/lasso.py", "python/sparseglm/benchmarks/multitask.py", "src/estimators/estimators.rs:Lasso", "src/solvers/impl_solver.rs:Solver::solve"]}
{"id": "C108", "title": "Duality gap of sparse logistic regression", "statement": "The duality gap of a logistic regression with L1 or elastic-net penalty (labels in [-1, 1]; dual point: the model's probabilities of the wrong labels, scaled to be feasible; dual objective: their mean entropy) bounds the distance of the objective from the minimum. The gap of the result of a call which stops before max_iterations is at most 2 log(2) * tolerance / (l1 strength), whatever the data; in floating point up to the precision. The objective therefore agrees with that of the coefficients of any other solver up to the two gaps.", "quantifier": "every data set with labels in [-1, 1], both storage formats, all settings, coefficients of any other solver", "why_tests_cant": "universally quantified optimality statement; tests compare on a few data sets", "anchors": ["src/datafits/single_task/mod.rs:Logistic", "src/penalties/separable/mod.rs:L1", "src/penalties/separable/mod.rs:L1PlusL2", "src/solvers/impl_solver.rs:Solver::solve"]}
{"id": "C109", "title": "Data sets without samples or without features", "statement": "No call fails or loops on an empty data set. Without samples (an empty selection of rows) every solver call, with either loss, any penalty of the library, one or several tasks, dense or sparse storage, and the Lasso estimators, returns zero coefficients of the right shape as if converged: the gradients are 0/0 = NaN and NaN scores count as optimal. compute_alpha_max and compute_alpha_max_sparse return NaN, not an error. Without features the solver returns the empty list.", "quantifier": "every number of features and tasks, every setting with tolerance >= 0, all penalties with valid hyperparameters", "why_tests_cant": "all sizes, penalties, losses and settings at once; tests do not use empty data", "anchors": ["src/solvers/impl_solver.rs:Solver::solve", "src/solvers/impl_solver.rs:Solver::solve_multi_task", "src/utils/mod.rs:compute_alpha_max", "src/utils/mod.rs:compute_alpha_max_sparse", "src/penalties/separable/mod.rs:L1"]}
{"id": "C110", "title": "Sparse arrays in which positions are stored more than once", "statement": "scipy allows several stored entries at one position, which are to be added. A fit which stops at the tolerance has solved the problem of the matrix with the entries added up to the tolerance, whatever is stored. If the entries at each position have opposite signs (or there is one), the solver converges. If no position is stored more than twice, the result for a convex penalty is not worse than zero. But convergence fails in general: for the matrix (2) stored as 1 + 1 the solver without acceleration alternates between two points forever, for target 2 and every alpha with alpha + tolerance below alpha_max = 4, and for the matrix (3) stored as 1 + 1 + 1, target 3 and alpha = 0 the coefficient after N epochs is 1 - (-2)^N.", "quantifier": "every array of indices in range, all data, settings and convex penalties; the counterexamples for all settings without acceleration", "why_tests_cant": "all arrays and the limit of infinitely many iterations; tests use canonical arrays only", "anchors": ["src/datafits/single_task/mod.rs:Quadratic", "src/datafits/single_task/mod.rs:Logistic", "src/datasets/csc_array.rs:CSCArray", "src/solvers/impl_solver.rs:Solver::solve", "python/sparseglm/estimators.py:fit"]}
{"id": "C111", "title": "Features with missing values", "statement": "On data in which a feature contains NaN (among the stored entries, if the design is sparse), the solver should return the fit of the data in which that feature is replaced by zeros, with coefficient exactly 0 for it. This holds for the Lasso (also through the estimator) and sparse logistic regression without acceleration, whatever the other values; on dense designs the zero coefficient is returned with acceleration too. It fails for the elastic net (even with l1_ratio = 1), the minimax concave penalty and all multi-task estimators, the multi-task Lasso included: on a dense design, if the working set starts with all features, either all coefficients are zero or those of that feature are NaN, and the call still returns normally.", "quantifier": "all dense designs, all sparse arrays with indices in range, all targets over the extended reals with NaN, all alpha, l1_ratio, gamma, all solver settings (acceleration only for the zero coefficient)", "why_tests_cant": "the outcome depends on how NaN passes through comparisons, maxima and divisions in every iteration; a test covers one array and one configuration", "anchors": ["src/utils/mod.rs:soft_thresholding", "src/penalties/separable/mod.rs:L1", "src/penalties/separable/mod.rs:L1PlusL2", "src/penalties/separable/mod.rs:MCP", "src/solvers/anderson_cd/mod.rs:coordinate_descent", "src/datafits/single_task/mod.rs:Quadratic"]}
{"id": "C112", "title": "Samples without entries in a sparse design", "statement": "The targets of samples with no stored entry in the sparse array do not affect a fit: any values, also NaN or infinite ones, give the same coefficients as zeros. This holds without acceleration for least squares and the logistic loss with every penalty, including those of users, for all single-task and multi-task estimators, and for every scalar type. If the target of a sample with entries is NaN, the L1 coefficients of all features with an entry in that sample are exactly 0. It follows that sparse and dense storage, which agree on real data (C34), do not agree on data with missing targets: with one feature stored as (1, 0) and targets (5, NaN) the dense Lasso fit is zero and the sparse one is not.", "quantifier": "every sparse array (also malformed ones), every pair of target arrays of one length agreeing on the stored rows, every penalty, all settings without acceleration, every scalar type", "why_tests_cant": "all arrays, all target values including NaN and infinities, all penalties; tests use finite targets and rows with entries", "anchors": ["src/datafits/single_task/mod.rs:Quadratic", "src/datafits/single_task/mod.rs:Logistic", "src/datafits/multi_task/mod.rs:QuadraticMultiTask", "src/datasets/csc_array.rs:CSCArray", "src/solvers/impl_solver.rs:Solver::solve", "src/solvers/impl_solver.rs:Solver::solve_multi_task"]}
{"id": "C113", "title": "Order of stored entries and explicit zeros do not matter", "statement": "Two sparse (CSC) arrays whose columns store the same non-zero entries (row, value), with the same repetitions but in any order, and with any number of explicitly stored zeros, give exactly the same result of every solver and estimator: same coefficients, same errors, same panics.", "quantifier": "All sparse arrays with in-range indices (unsorted or repeated positions included), all real targets, both single-task losses and multi-task least squares, all built-in penalties with valid parameters, all solver settings and estimator settings, exact arithmetic.", "why_tests_cant": "Tests build arrays with scipy, which sorts indices and drops zeros; they cannot cover all orders and all padded arrays.", "anchors": ["src/datasets/csc_array.rs:CSCArray", "src/datasets/mod.rs:DesignMatrix", "src/datafits/single_task/mod.rs:Quadratic", "src/datafits/single_task/mod.rs:Logistic", "src/datafits/multi_task/mod.rs:QuadraticMultiTask", "src/solvers/anderson_cd/mod.rs:coordinate_descent", "src/solvers/anderson_bcd/mod.rs:block_coordinate_descent"]}
{"id": "C114", "title": "Fits without penalty: least squares and maximum likelihood", "statement": "alpha = 0 is accepted. Lasso, elastic net and MCP then return exactly the same. A fit which stops before max_iterations solves the normal equations (or the likelihood equations) up to the tolerance; with linearly independent columns its coefficients are those of ordinary least squares up to sqrt(p)*tol/c, c the smallest eigenvalue of X'X/n. An explicit number of iterations suffices to stop, also with dependent columns. Logistic regression on classes separated by a direction u with margin m misclassifies at most 2*n*tol*|u|_1/m training samples, and with tolerance zero never stops.", "quantifier": "All designs (dense, sparse), targets, tolerances, solver settings which stop (acceleration included); logistic statements for all labels and separating directions; exact arithmetic.", "why_tests_cant": "An agreement with least squares within a proved distance, for all designs, cannot be sampled, and the absence of a stop cannot be observed.", "anchors": ["src/penalties/separable/mod.rs:L1", "src/penalties/separable/mod.rs:L1PlusL2", "src/penalties/separable/mod.rs:MCP", "src/solvers/anderson_cd/mod.rs:coordinate_descent", "src/estimators/hyperparams.rs:LassoParams"]}
{"id": "C115", "title": "Training errors of sparse logistic regression", "statement": "A logistic regression with l1 penalty or MCP which stops before max_iterations misclassifies at most 2*(n*(alpha+tol)*|u|_1 + sum of slacks)/m training samples, for every linear classifier u, margin m > 0 and slacks for which label_i * (X u)_i >= m - slack_i. With elastic net: at most 2*(n*(alpha*l1_ratio+tol)*|u|_1 + n*sqrt(2*alpha*(1-l1_ratio)*log 2)*|u|_2 + sum of slacks)/m. On separable classes with 2*n*(alpha+tol)*|u|_1 < m (l1 penalty) all training samples are classified correctly. In floating point (l1 penalty) the same holds with the tolerance increased by an error which vanishes with the precision.", "quantifier": "All designs (dense, sparse), labels, strengths, tolerances, solver settings which stop, and all comparison classifiers; in every floating-point format of sufficient precision.", "why_tests_cant": "A comparison with all linear classifiers on all data sets cannot be sampled.", "anchors": ["src/datafits/single_task/mod.rs:Logistic", "src/penalties/separable/mod.rs:L1", "src/solvers/anderson_cd/mod.rs:coordinate_descent", "examples/sparse_logistic_regression.rs:main"]}
{"id": "C116", "title": "Calibration within groups of samples", "statement": "If a feature j is the indicator of a group of samples (an intercept column, a category), a fit with l1 penalty or MCP which stops before max_iterations is calibrated on the group: for logistic regression with labels +1 and -1 the number of samples of class +1 differs from the sum of the predicted probabilities by at most n*(alpha+tol); for least squares the residuals of the group add up to at most n*(alpha+tol); for the multi-task Lasso the Euclidean norm over the tasks of these sums is at most n*(alpha+tol). For the elastic net these sums are n*alpha*(1-l1_ratio)*w_j within n*(alpha*l1_ratio+tol). In floating point (single task; l1 penalty, and elastic net with least squares) the same holds with the tolerance increased by an error which vanishes with the precision.", "quantifier": "All designs (dense, sparse), groups, targets and labels, strengths, tolerances and solver settings which stop; in every floating-point format of sufficient precision.", "why_tests_cant": "The statement is about all data sets and all groups, and with a proved constant.", "anchors": ["src/datafits/single_task/mod.rs:Logistic", "src/datafits/single_task/mod.rs:Quadratic", "src/penalties/separable/mod.rs:L1", "src/penalties/separable/mod.rs:MCP", "src/solvers/anderson_cd/mod.rs:coordinate_descent"]}
{"id": "C117", "title": "Number of selected features", "statement": "A Lasso or elastic-net fit which stops before max_iterations with tol < alpha*l1_ratio selects at most L*||y||^2/(n*(alpha*l1_ratio-tol)^2) features, where L is a bound of the eigenvalues of X^T X/n (for instance the sum of the mean squares of the features); with ||y - X w||^2 of the result in place of ||y||^2 as well. Logistic regression selects at most L/(alpha*l1_ratio-tol)^2 features, whatever the labels. For the multi-task Lasso the same holds for the number of nonzero rows, with the sum of squares of all targets. In floating point (least squares, and logistic regression with l1 penalty) the bounds hold with the tolerance increased by an error which vanishes with the precision.", "quantifier": "All designs (dense, sparse), targets and labels of modulus at most 1, strengths, tolerances below the strength, solver settings which stop; in every floating-point format of sufficient precision.", "why_tests_cant": "The bound is a statement about all data sets with a proved constant; a test only sees the supports of a few data sets.", "anchors": ["src/penalties/separable/mod.rs:L1", "src/penalties/separable/mod.rs:L1PlusL2", "src/penalties/block_separable/mod.rs:L21", "src/datafits/single_task/mod.rs:Quadratic", "src/datafits/single_task/mod.rs:Logistic", "src/solvers/anderson_cd/mod.rs:coordinate_descent"]}
{"id": "C118", "title": "Nothing is left in the residuals", "statement": "If a Lasso or MCP least-squares fit with strength alpha and tolerance tol stops before max_iterations, a second Lasso or MCP fit to its residuals y - X w, with any settings of at least the same strength and tolerance, returns exact zeros (MCP as second penalty: 1/gamma below the step constants of nonzero features). compute_alpha_max of the residuals is at most alpha+tol, and at least alpha-tol if the Lasso fit is not null. The same refit statement holds for the multi-task Lasso.", "quantifier": "All designs (dense, sparse), targets, strengths, tolerances and settings of both fits.", "why_tests_cant": "The statement couples two runs of the solver on all data sets; the residuals of the first run are different for every data set.", "anchors": ["src/penalties/separable/mod.rs:L1", "src/penalties/separable/mod.rs:MCP", "src/penalties/block_separable/mod.rs:L21", "src/datafits/single_task/mod.rs:Quadratic", "src/solvers/anderson_cd/mod.rs:coordinate_descent", "src/utils/mod.rs:compute_alpha_max"]}
{"id": "C119", "title": "Predictions of new samples are robust", "statement": "If the features of two samples differ by at most delta, the predictions X w of a Lasso or elastic-net fit for them differ by at most delta*||y||^2/(2*n*alpha*l1_ratio), the linear predictors of a logistic regression by at most delta*log 2/(alpha*l1_ratio) (so the predicted class is the same if its margin is larger than this), and the predictions of a multi-task Lasso by at most delta*||Y||^2/(2*n*alpha) in Euclidean norm: constants of the training targets and the strength alone, whatever the design, the iteration limit and the other settings. In floating point the same holds up to an error which vanishes with the precision.", "quantifier": "All designs (dense, sparse), targets and labels of modulus at most 1, strengths, settings, and all pairs of new samples; in every floating-point format of sufficient precision.", "why_tests_cant": "Robustness against all perturbations of all inputs cannot be sampled.", "anchors": ["src/penalties/separable/mod.rs:L1", "src/penalties/separable/mod.rs:L1PlusL2", "src/penalties/block_separable/mod.rs:L21", "src/datafits/single_task/mod.rs:Quadratic", "src/datafits/single_task/mod.rs:Logistic", "src/solvers/anderson_cd/mod.rs:coordinate_descent"]}
