# Design: a Lean model of sparseglm and what is proved about it

Subject: `/repo` (PABannier/sparseglm, Rust with Python bindings). Nothing in `/repo` is built or run; the model
is written by reading the source. Every model definition cites the file and lines it transcribes, and states in the same
comment what it simplifies.

Contents: 1 modelling decisions · 2 trusted base · 3 layout · 4 proof methods · 5 properties one by one ·
6 disagreements and bugs · 7 how the theorems are tested

## 1. Modelling decisions

* **Scalars.** The Rust code is generic over `F: Float`. The model is generic over a *lawless*
  class `Scalar F` (`Verif/Scalar.lean`) holding the operations the code uses (`+ - * /`, `abs`,
  `sqrt`, `exp`, `ln`, `cos`, `acos`, `powf`, `signum`, `max`, comparisons as `Bool`, sign bit,
  casts, literals, plus ndarray's `sum` and `dot`, whose summation order is external).
  Four layers of theorems follow. Every theorem says by its type-class arguments which one it belongs to.
  * Layer 0: **every** `Scalar F`, no laws. Structure, panics, shapes, API plumbing. These hold of `f32`/`f64`, whatever the
    arithmetic does.
  * Layer 1: every `Scalar F` with `LawfulCmp F` (`Verif/Cmp.lean`): values which are not NaN denote extended reals, and
    `< <= == max` compare them. True of `f32`/`f64`; nothing is assumed of `+ - * /`. Working sets, maxima, exit
    tests, acceptance of extrapolated points.
  * Layer 2: `XR` = reals, `+inf`, `-inf`, `NaN` with the IEEE rules for special values and no rounding (and an unsigned
    zero). Proximal operators, gradients, optimality, convergence, equivariance.
  * Layer 3: rounded arithmetic. `Precise F e`, `Propagates F`, `PreciseExp F e` (`Verif/Spec/Rounding.lean`)
    list what is assumed of a format of precision `e`: relative/absolute error of each operation, overflow only
    beyond `1/e`, any summation order in `dot`, propagation of NaN and infinities, signs. `Verif/Fl.lean` and
    `Verif/Proofs/Fl.lean` construct such a type (`Fl (bin t)`: rounding to nearest with `t + 2` bits), so the
    assumptions are consistent and the examples are not vacuous. Theorems C62, C63. `MonoRounded F rep`
    (`Verif/Spec/MonoRounding.lean`) lists facts about correct rounding (monotone, odd, exact on numbers of the format), realised by
    `Fl chop64` (towards zero, 53 bits). Theorem C67.
    `Verif/IEEE.lean` defines IEEE 754 binary arithmetic (`binary64`, `binary32`: rounding to nearest even, subnormal numbers,
    signed zeros, infinities, NaN; sums in any order), and `Verif/Proofs/IEEELaws.lean` proves all these laws for it, with
    `e = 2^-50` and `e = 2^-21` (`Verif/Props/IEEE.lean`).
* **Panics** are values: `M α = Except Panic α`. Index errors, ndarray shape errors, `unwrap` on
  `None`/`Err`, `partial_cmp().unwrap()` on NaN, `usize` underflow. (`usize` underflow panics in
  debug and wraps in release; at the sites concerned both end in a panic or the theorem excludes the case.)
* **Containers.** 1-d arrays are `List F`; 2-d arrays are `Mat F` (`ncols` and a list of rows, with a
  rectangularity predicate that ndarray guarantees by type). CSC arrays are the three raw vectors of
  the Rust struct (`i32` as `Int`; an `as usize` cast of a negative number is an out-of-range index).
* **Loops** are folds in the `Except` monad; the loops of the solvers are structural recursion on the remaining
  number of epochs/iterations, with `break` as early return.
* **Traits** `DesignMatrix`, `Datafit`, `Penalty` and their multi-task versions are Lean classes, so theorems about
  the solvers quantify over user-supplied datafits and penalties as the Rust API allows.
* **External code** is a parameter with a recorded contract or is modelled by its documentation:
  * `sort_unstable_by` is an oracle `srt : Argsort F` with contract `ArgsortSpec` (a sorted permutation, ties in
    arbitrary order; panic when a comparison with NaN is unwrapped); `argsortIns_spec` shows that the contract can be met;
  * ndarray's reductions are the uninterpreted `Scalar.sum`/`Scalar.dot` in layers 0/1, the exact sum in layer 2, an
    inexact sum in layer 3;
  * `println!` is a log of events;
  * sklearn's `check_array`, numpy truth values and PyO3 conversions: see the head of `Verif/Model/Python.lean`.
* **Spec** (`Verif/Spec/*.lean`): textbook definitions on `Fin n → ℝ`/`EuclideanSpace` (penalties, losses, objective,
  proximal operator as a set of minimisers, Fréchet subdifferential, distance, Lipschitz constant, working set,
  extrapolation, calls of the API), independent of the model's helpers. `Verif/Spec/Problem.lean` describes a problem
  (`Design`, `LossKind`, `Pen`) and the API calls which solve it (`solve1`, `solveMT`); `Verif/Spec/Fits.lean` the
  same for estimators; `Verif/Spec/FloatProblem.lean` for data stored in a floating point format.

## 2. Trusted base

* Lean 4.33.0 kernel and Mathlib. Every property theorem depends on the axioms `propext`, `Classical.choice`, `Quot.sound`
  and no others (`#print axioms`, checked for every theorem of the manifest); no `sorry`, no `native_decide`.
* The hand transcription of the Rust source. Modelled:
  * `src/utils/mod.rs`: everything (soft thresholds, L0.5 prox, critical regularizations, linear solver);
  * `src/penalties/separable`, `src/penalties/block_separable`: all penalties, all methods;
  * `src/datafits/single_task`, `src/datafits/multi_task`: all datafits, dense and CSC implementations;
  * `src/datasets`: design matrix operations, CSC access, targets and their casts, dataset constructors;
  * `src/solvers`: `Solver` and setters, both solvers (scores, working sets, epochs, acceleration, stopping, printing);
  * `src/estimators`: parameters, defaults, setters, validation, `fit` of all estimators, errors;
  * `python/sparseglm/estimators.py` and the wrappers `python/src/*.rs`: constructors, `fit`, `predict`, and the scikit-learn methods `get_params`, `set_params`, `clone` inherited or applied (written from their documentation);
  * `python/sparseglm/utils.py`: everything; the random generator of `make_correlated_data` is an oracle.
* Not modelled: memory layout and ndarray broadcasting other than at the shapes used; aliasing (the Rust borrow checker);
  allocation failure; `i32`/`usize` overflow of sizes; examples,
  benchmarks, packaging.
* Semantics of `num_traits::Float` on special values (`max` ignores NaN, `signum(0) = 1`, `is_negative` is the sign bit).
* Floating point: that `f64`/`f32` arithmetic is as defined in `Verif/IEEE.lean` (IEEE 754, round to nearest even; sums and dot products
  are computed by additions of the rounded terms in some order; the sign of NaN is ignored; `exp`, `ln`, `cos`, `acos`, `powf` are correctly
  rounded, where libm promises a few units in the last place: the laws `PreciseExp` allow for that). The laws `Precise`, `Propagates`,
  `PreciseExp`, `Saturates`, `MonoRounded` are then theorems. For C83 and C85 also that entries of matrix products (crate matrixmultiply) are sums
  of products in some order, with or without fused multiply-add (`Summation.MatMul`); then `PreciseNorm` is a theorem. For C67 also that
  ndarray computes `X.t().dot(&y)` in the same way in `compute_alpha_max` and in `Quadratic::initialize` (same expression, same data).
- `Iterator::sum` of floats is modelled as a left fold from `0`. Newer standard libraries start from `-0`; the two differ only in the sign of a zero sum.

## 3. Layout

| directory | contents |
|-----------|----------|
| `Verif/Scalar, Cmp, XR, Fl, IEEE, Summation, MatMul, Bridge` | the arithmetics |
| `Verif/Model` | transcription of the code |
| `Verif/Spec` | vocabulary of the statements |
| `Verif/Props` | the property theorems, each with an `example` which meets its hypotheses |
| `Verif/Proofs` | helper lemmas, not claimed as properties |
| `Verif/Tests` | bounded checks on an integer instance (tests, not proofs) |

## 4. Proof methods

* **Skeleton** (`Skeleton`, `SkelCD`, `SkelBCD`). Both solvers are shown equal to one generic loop with parameters
  (scores, support, epoch, acceleration, inner test). Facts about loops are proved once.
* **Triples** (`Triple`): `Tri E m Q` says that `m` either panics with a panic in `E` or returns a value in `Q`; also a
  relational version for two runs.
* **Semantics of datafits and penalties on real data** (`DSem`, `PSem`, `BSem`): what each method returns on finite
  data, as a formula over `ℝ`. A run on `XR` is then a run over the reals (`SimCD`, `SimBCD`, `RealRun`) of an abstract problem
  (`RProb`: gradients, steps, prox, scores, objective), and all analysis is done there.
* **Equivalences** (C34, C37–C39, C49, C59–C61): simulation of two skeletons with a relation on states, up to maps of
  the features and a factor of the scores (`RelRun`, `MapRun`, `SimJoint`, `Scale`, `Sign`, `Symmetry`).
* **Safety** (C24–C26, C46): shape contracts for every operation (`Shapes`, `SafeInst`), lifted to runs; for few features
  the explicit path to the panic (`AccelPanic`, `RunPanic`).
* **Convergence** (C50): sufficient decrease of an epoch, working sets only grow and are eventually all features with a
  nonzero score, cyclic coordinate descent on a fixed working set has scores tending to zero (`Cyclic`), convexity turns
  small scores into a small objective gap by compactness of sublevel sets.
* **Rounding** (C62, C63, C85): calculus of errors (`Approx`, `Chain`), each operation of an epoch approximates its exact version
  uniformly on bounded sets (`FloatArr`, `FloatFit`, `FloatLog`, `FloatPen`, `FloatVal`, `FloatAccel`), a run of such
  a loop has the properties of an exact run up to a tolerance which vanishes with `e` (`Perturbed`, `PertRun`), and the constants
  exist (`FloatCall`, `FloatLogCall`, `FloatEnd`).

## 5. Properties

`proved` unless marked. "layer" as in section 1. Theorem names are `Sglm.Cxx_…`, listed in `MANIFEST.json`.

| id | layer | what is modelled and how it is proved |
|----|-------|----------------------------------------|
| C01, C02 | 2 | `L1.prox`, `L1PlusL2.prox`: the value is the unique minimiser; strong convexity inequality, case split |
| C03 partial | 2 | `MCP.prox`: exact for step ≤ gamma; **false** for step > gamma (`C03_false`), for every such step (`C03_large_steps`) |
| C04 | 2 | `prox05`: substitution t = √z, stationary points of the cubic through cos 3θ |
| C05 partial | 2 | `L21.prox`: exact by Cauchy–Schwarz except at alpha = 0, v = 0, where the result is NaN (`C05_nan`, `C05_false`) |
| C06 | 2 | `BlockL1PlusL2.prox`: reduction to the norm |
| C07 partial | 2 | `BlockMCP.prox`: as C03 |
| C08–C11 | 2 | `subdiff_distance` equals `Metric.infDist` to the Fréchet subdifferential, which is computed as a set |
| C12 partial | 2 | block elastic net: correct at nonzero rows; **false** at zero rows (missing square root, `C12_false`); `C12_rows_partial` says exactly which rows are right |
| C13 partial | 2 | block MCP: **false** for 0 < ‖W_j‖ < alpha·gamma (gradient ignored, `C13_false`); `C13_rows_partial` says exactly which rows are right |
| C14 partial | 1 | **false**: with L0.5 the scores are identically 0, so every run returns zeros (`C14_returns_zeros`, `C14_false`) |
| C15, C16, C19 | 2 | datafit values and gradients: `HasDerivAt` along coordinate moves, dense and CSC |
| C17 | 2 | step sizes are Lipschitz constants; majorisation; labels outside [-1,1] break it (`C17_logistic_labels_needed`) |
| C18 | 2 | CSC datafits equal dense ones on the represented matrix; duplicates break it (`C18_duplicates_differ`) |
| C20 | 2 | `compute_alpha_max*` is the threshold above which zero is optimal |
| C21 partial | 2 | `solve_lin_sys` is sound for nonvanishing pivots and for PSD matrices; **false** for zero pivots (`C21_false`) |
| C22 | 2 | it succeeds on every matrix with nonvanishing leading minors: elimination invariant |
| C23 | 1 | `construct_ws`: size, distinct, contains the support, highest scores; infinite scores excluded (`C23_infinite_scores_evict`) |
| C24 | 0 | length/shape of the result: invariant |
| C25 | 0, 2 | without acceleration nothing panics, whatever the data (`C25_never`, `C25_estimators`, for every number type with the comparison rules of floats): the scores of zero coefficients are `max(0, ·)`, which is not NaN, and those of the others are replaced by infinity before sorting (`Proofs/Quiet.lean`). Without these rules only NaN comparisons can panic (`C25_no_panic`) |
| C26 partial | 0, 2 | with acceleration: as C25 if K ≤ min(ws_start_size, p); **false** for p < K (`C26_few_features_panic`, `C26_false`); `C26_few_features`: for min(ws_start_size, p) < K ≤ 10 and every number format, the result is the null model or an index panic, so the two theorems cover all such settings |
| C27 | 2 | `Xw = X w` throughout every run: invariant, acceleration included |
| C28 | 2 | update, epoch, run and more iterations never increase the objective; MCP needs step ≤ gamma (`C28_mcp_counterexample`) |
| C29 | 1 | acceptance test of extrapolated points |
| C30 | 1, 2 | early exit: all scores ≤ tolerance, hence an explicit bound on the objective gap |
| C31 partial | 2 | **false** for the multi-task elastic net (`C31_false`); the weaker bound is proved |
| C32 | 2 | alpha ≥ alpha_max gives zeros, below it does not |
| C33, C35, C36, C43 | 0 | equality by unfolding of the loop |
| C34 | 2 | sparse and dense runs simulate each other |
| C37 partial | 0, 2 | l1_ratio = 1 is Lasso (single-task); **false** multi-task (`C37_mt_false`) |
| C38, C39 | 2 | gamma = ∞, one task: simulation |
| C40 partial | 0 | validation; **false** for BlockMCP gamma (`C40_false`) |
| C41, C42, C47 | 0 | case analysis |
| C44 | 0, 2 | zero columns keep zero coefficients |
| C45 partial | 1, 2 | **false**: NaN targets give the null model (`C45_false`): the gradients are NaN and their scores `max(0, NaN) = 0`; single-task, logistic and multi-task (one missing value, all tasks) |
| C46 | 0 | shape mismatches panic |
| C48 partial | 0 | Python constructors; **false** (`C48_false`); what they do check is proved |
| C49 | 2 | negated targets negate the coefficients |
| C50 | 2 | convergence of the run for every tolerance and of the objective to its minimum |
| C51, C55 | 0 | a Python fit is the Rust fit of the same data; non-finite data is a ValueError |
| C52 partial | 0 | `predict`; **false** (`C52_false`), exact behaviour proved |
| C53 partial | 0 | invalid hyperparameters; **false** (`C53_false`: PanicException) |
| C54 partial | 0 | float32; **false** (`C54_false`: TypeError) |
| C56 partial | 0 | sample counts; **false** for sparse single-task fits (`C56_false`) |
| C57 partial | 2 | extrapolated point is an affine combination on the working set; weights are not Anderson's (`C57_false`) |
| C58 | 2 | K = 1 acceleration changes nothing |
| C59 | 2 | permutation/duplication-invariant dependence on the collection of samples |
| C60 partial | 2 | negated features, rotated tasks: without acceleration; **false** with acceleration (`C60_false`) |
| C61 partial | 2 | units: single-task, multi-task L2,1 and MCP; **false** for the multi-task elastic net (`C61_false`) |
| C62 | 3 | a rounded run returns finite coefficients, no worse than zero up to ε; the IEEE model meets the standard (`C62_ieee_operations`) |
| C63 | 3 | a rounded run stops, and its objective is within ε of the minimum |
| C64 | 2 | Python `compute_alpha_max` equals the Rust helper and is the null-model threshold of the Python estimators |
| C65 | 2, 3 | strongly convex objectives: one minimiser, distance ≤ √p·tol/μ, settings do not matter (also several tasks), convergence; also rounded |
| C66 partial | 2 | `make_correlated_data`: signal to noise ratio, density, noise from draws not used for X and w (`C66_noise`), correlation (moments of linear combinations of uncorrelated draws); **false** for `w_true` of the documented shape (`C66_false`) |
| C67 | 3 | floating point fits with `alpha >= compute_alpha_max` return exact zeros (laws `MonoRounded`: monotone odd rounding, exact on numbers of the format) |
| C68 | 2 | explicit bound on the number of iterations (potential: objective plus a bonus while the working set still changes), stationarity of the result for the MCP and convex penalties, estimators |
| C69 | 2, 3 | objective gap and distance of predictions in terms of the tolerance, without uniqueness of the coefficients; size of the result bounded by F(v) ≤ F(0); minimisers make equal predictions; multi-task; floats; Lasso estimator with the bound of C68. Multi-task Lasso in floating point: `Props/InFloatMT.lean`. |
| C70 | 2, 3 | selected features are correlated with the residual; exact zeros with a margin (one-dimensional test of the certificate, and C69 for the residual), signs from C65; support identified for small tolerances; multi-task rows; floats. Multi-task Lasso in floating point: `Props/InFloatMT.lean`. |
| C71 | 2 | two strengths: monotone penalty and loss, continuity of predictions (also several tasks) |
| C72 | 2, 3 | grouping effect of the elastic net (certificate in the direction `e_i - e_j`) |
| C73 | 2, 3 | slow and fast rates for the Lasso and the multi-task Lasso from the certificate (the noise enters through its correlations with the features only). Multi-task Lasso in floating point: `Props/InFloatMT.lean`. |
| C74 | 2 | MCP: Fréchet subgradients of weakly convex functions are subgradients up to the concavity `1/γ`, compensated by the curvature of the loss; uniqueness, accuracy, independence of settings, estimator; residual correlations without assumptions on the design (`Props/Concave.lean`) |
| C75 | 2, 3 | orthogonal columns: the stationarity conditions decouple; closed forms of `Spec/ClosedForm.lean` (soft, firm, block soft thresholding); exact zeros; `Lasso::fit`; floats (`Props/Orthogonal.lean`) |
| C76 | 2 | least squares sees `Xᵀ X / n` and `Xᵀ y / n` only: `RProb.Scaling` between the abstract problems of the two datasets (gradients, steps, scores equal, objectives up to a constant), hence equal runs (`Proofs/Gram.lean`, `Props/Statistics.lean`) |
| C77 | 2 | same machinery: the elastic net step and score are those of the Lasso on the augmented data (`prob1_ridge`); zero columns excluded, the solver skips them |
| C78 | 2, 3 | objective with intercept = objective of the centred data + half the squared error of the intercept (`Spec/Statistics.lean`); optimality from the certificate; floats. Multi-task Lasso in floating point: `Props/InFloatMT.lean`. |
| C79 | 2, 3 | `Spec/Features.lean` (`Subfeatures`, `spread`); the certificate restricts to subsets of features and extends by features whose residual correlation is at most the slope; refits via strong convexity, predictions without it; floats (`Props/Features.lean`) |
| C80 | 0, 1, 3 | `Spec/Check.lean` (`checkOf`, `recheckOf`: the public functions `initialize`, `compute_extrapolated_fit`, `opt_cond_violation`; exact derivative, sizes, drift); forward error analysis of sums, quotients and scores with explicit constants (`Proofs/FloatCheck.lean`, `Proofs/FloatRecheck.lean`); the certificate and the connection with runs (`Props/FloatCheck.lean`), examples in `f64` |
| C81 | 0, 1, 3 | `Logistic.value` (layer 0) in any arithmetic with the laws `Precise`, `PreciseExp`: each step of one term (product, exponential, sum, logarithm, division by `ln E`), the sum and the mean with explicit constants (`Proofs/FloatLogValue.lean`); `C81_full` fails in IEEE arithmetic because `exp` overflows: concrete witnesses `C81_overflow64`, `C81_overflow32`; `C81_partial` for margins without overflow |
| C82 | 0, 1, 3 | as C80, for the logistic loss: `Spec/LogCheck.lean` (exact derivative, sizes, the laws `Saturates`: overflow goes to infinity, one over infinity is zero), error of the logistic function at every finite number, of the derivative (dense and CSC) and of the violations (`Proofs/FloatLogCheck.lean`); `Saturates` is a theorem for IEEE arithmetic (`IEEE.saturates`); certificate for any coefficients and for runs (`Props/FloatLogCheck.lean`), `f64` examples, one with an overflowing exponential |
| C83 | 0, 1, 3 | as C80, for the multi-task Lasso: `Spec/MTCheck.lean` (the laws `PreciseNorm` for squares, square roots and matrix products; exact row derivative, sizes, `RowOK`), errors of norms and scores (`Proofs/FloatMTScore.lean`), gradients and the check (`Proofs/FloatMTCheck.lean`); `PreciseNorm` is a theorem for IEEE arithmetic (`Proofs/IEEENorm.lean`) with matrix products in any order, fused or not (`Verif/MatMul.lean`). `C83_full` (no condition on rows) is false: `C83_false`, rows whose squares underflow; `C83_*_partial` for rows which are zero or of moderate norm. `C83_run`, `C83_zero` hold in any arithmetic |
| C84 | any | `Model/PyObject.lean` (objects with parameters and `coef_`; constructor, `get_params`, `set_params`, `clone`, `fit`, sequences of calls), on top of the Python model; theorems in `Props/PyObject.lean` with the specification `SameParams`, `lastAssigned`, `Constructible`. `C84_full` (what can be fitted can be cloned) is false: `C84_enet_clone`, `C84_false`; `C84_clone_partial` characterises the clonable objects |
| C85 | 3 | as C62, C63, C65, for the multi-task Lasso: `Spec/MTFloat.lean` (the laws `MTLaws`; entry points on stored data), block soft-thresholding and datafit (`Proofs/FloatMT*.lean`), perturbed runs (`FloatMTRun`, `FloatMTAccel`, `FloatMTEnd`), which instantiate the same abstract loop as C62 and C63. Rows after a plain step are zero or of norm at least a multiple of `e` (law `gap`), so that their squares do not underflow; rows after an extrapolation need not be, hence the condition `StopsPlain`. `MTLaws` is a theorem for IEEE arithmetic (`C85_f64`, `C85_f32`, `C85_wide`) |
| C86 partial | 2 | multi-task MCP: **false** (`C86_false`, a run of two features computed in full, `Proofs/SmallRun.lean`); the rows for which an early exit is a certificate, and what it says about the others, are proved. `C31_never_stops` is the same kind of failure of the multi-task elastic net |
| C87 | 2 | `Proofs/IterCount.lean`: the potential of C68 decreases by a fixed amount in every iteration which starts at a bad point, whatever scores the solver uses, as long as zero features are ordered correctly or all are selected; so the iterations starting at bad points are counted instead of all of them |
| C88 | 2 | `Proofs/RowSpace.lean`: a run, acceleration included, keeps every row in a linear subspace which gradient and proximal operator respect (invariant of the iterates and of the stored ones) |
| C89 | 2 | `Proofs/Linear.lean`: one iteration decreases the objective by a multiple of the squared scores before (zero rows) and after (nonzero rows) it, so two iterations bound all scores in between; strong convexity bounds the excess of the objective by the squared scores (`gap_sq`); hence `a (k+1) ≤ κ (a k - a (k+2))`. Stated with `solve1`/`solveMT` at `max_iterations = i`, the objective and the minimiser |
| C90 | 2 | `Proofs/Stability.lean`: the certificates of two finished fits of two data sets (C30, C69), each tested at the other fit, are added; the penalties cancel, and only the difference of the losses remains (`lsq_cross`, `replaced_cross`). Stated with `Stops`/`StopsMT`, `Spec.fit`, and the slope of the loss of one sample (`Spec/Stability.lean`) |
| C91 | 2 | `Proofs/Null.lean`: if the stopping test of the first iteration fails, the first epoch decreases the objective by the amount of C87 (`RProb.Weak`), and neither later epochs nor the extrapolation undo that. Stated with `Spec.corr`/`corrMT` and the slopes at zero (`Spec/NullModel.lean`), and with the model of `compute_alpha_max(_mtl)` |
| C92 | 2 | `Proofs/FloatMCPPen.lean`: computed values of the MCP prox and score, with error at most a constant times the precision (the prox is a Lipschitz function, `firmR`, with slope `1/(1-1/(γL))`; hence the strict step condition). `Proofs/FloatWeak.lean`: one update, one epoch, the scores and the working set of a solver whose proximal steps are continuous, without convexity. `Proofs/Keep.lean`: runs of a loop whose parts keep an invariant. `Proofs/FloatMCPRun.lean`: an inexact proximal step increases the objective by at most a constant times the error (`RProb.MM.near`), points reached after `k` updates are bounded by a recursion (`magSeq`) - without extrapolation no level sets are needed, which for the MCP are unbounded in general. Extrapolation is excluded: for designs without full column rank an accepted extrapolated point of an MCP objective can be arbitrarily far away. Termination (`C92_terminates`): the computed step satisfies the optimality condition of the proximal step, with the Fréchet subdifferential, up to a constant times the precision (`mcp_near_sub`; this uses the law `mul_sign` of `Precise`: a rounded product does not have the wrong sign), every epoch decreases the objective or leaves small scores, up to the error (`Proofs/PertWeak.lean`, the non-convex counterpart of `Perturbed.lean`). |
| C93 | 2 | First part: consequences of C28 (no run ends above the null model) in terms of residuals, log-loss, norms and counts. Second part: a coefficient times the optimality condition of its coordinate, summed over the coordinates (`pull_score`, `bpull_score`); the sum of coefficient times gradient is minus the scalar product of predictions and residuals over n. `Spec/Bounds.lean` defines the pull of a penalty |
| C94 | 2 | `Model/TestHelpers.lean`: `fill_random_vector` is the first draws of a stream which is a parameter (the seed is a constant of the source, so every call sees the same stream); `generate_random_data(_mtl)` with ndarray's column-major and row-major reshaping. Full statement `C94_full` and its negation; `C94_bits` holds in any arithmetic |
| C95 | 2 | Positive part: the weak-convexity gap of C74 (`lsq_weak_gap`) without a global curvature assumption, for the direction at hand; zero columns by C44. Counterexample: a run which selects one feature strictly first and whose every later step is the identity (`RProb.run_first`, `Proofs/SmallRun.lean`) is evaluated for all solver settings at once. Full statement `C95_full` and its negation |
| C96 | 2 | `Spec/Settings.lean` says which settings are to have the same effect. `cd_same`, `MT.bcd_same` compare the two calls line by line, printed lines included; `Skel.outer_idle` compares an accelerated run with a plain one as long as the ring buffer of iterates is never full (`storeIterate` in C25 keeps its shape), `Skel.outer_still` follows a run without updates |
| C97 | 2 | The logistic counterpart of C69–C71. The loss of one sample is convex with a 1/4-Lipschitz derivative, hence co-coercive (`sample_coco`); `cert_slope` turns the certificate of C30 into an inequality for the slopes, two of which bound the difference of the probabilities (`cert_slopes`) |
| C98 | 2 | `Model/Examples.lean`: the four example programs, on a stream of random numbers which is a parameter; assertions and `unwrap` are explicit failures. The specification (`Spec/Examples.lean`) writes out the data, the settings and the regularisation. `lassoProgram_eq` etc. reduce a program to two runs; counterexamples on data with one nonzero entry (`Proofs/SingleRun.lean`, `Proofs/SingleEntry.lean`: runs in which only one feature moves) |
| C99 | 2 | The solver model is polymorphic in the traits, so the theorems quantify over arbitrary instances. A contract per trait (`Spec/Custom.lean`: `StorageOK`, `LossOK`, `DatafitOK`, `PenaltyOK`, `Regular`) says that the methods compute what a textbook loss `f(Xw)` and penalty `φ` prescribe; `step_size` must be the coordinate-wise Lipschitz constants. From it follow return, descent, stationarity, certificate, iteration bound. `C99_library`: the library's own datafits and penalties meet the contract; examples with a user's Huber datafit and asymmetric penalty (`Proofs/CustomHuber.lean`). |
| C100 | 2 | Partial. Contracts of C99 with step constants `1 / L j` as the trait documentation asks. `C100_false`/`C100_diverges`: library quadratic with the documented `step_size` (`Documented`, `Proofs/StepDoc.lean`), one sample, diverges. `C100_partial`: `L j ≤ 1`. Any nonnegative step sizes: return and stationarity of early stops. |
| C101 | 2 | The multi-task version of C99: contracts in `Spec/CustomMT.lean` for the traits `MultiTaskDatafit` and `MultiTaskPenalty` (loss `f(XW)`, penalty `φ` of a row, block-wise Lipschitz constants). Return, descent, stationarity, certificate, iteration bound. `C101_library`: the quadratic datafit with the L21 penalty meets the contract (the scores of the other two block penalties do not, bugs 4 and 5); example with a user's Huber loss and group elastic net (`Proofs/CustomMTLib.lean`). |
| C102 | 2 | Partial. Contracts of C99 with arbitrary scores (`PenaltyScored`). `C102_false`/`C102_stops_at_zero`: a penalty whose `subdiff_distance` follows the documentation (distance of the gradient, `DocScores`, `Proofs/ScoreDoc.lean`) makes the call stop at a point with violation 1. `C102_partial`: even penalties, zero coefficients. `C102_nonzero`: the documented L1 scores leave a violation of `2 α - τ` in every nonzero coefficient. Any scores: return, descent; scores bounding the distances up to a factor: stationarity. |
| C103 | 2 | Contract `ConstrainedOK` (`Spec/Constraint.lean`): penalties with the value `+∞` outside an interval `D`. The simulation (`Proofs/ConstraintSim.lean`) only covers feasible states, so it is proved together with the invariant that iterates stay in `D` and below the objective of zero; extrapolated points outside `D` have an infinite objective and are dropped. The iteration bound replaces the global Lipschitz property of scores by one for bounded subgradients (`RegularOn`). `C103_zero_column`: zero columns where zero is not optimal keep a call from stopping. `C103_svm`: quadratic datafit with zero targets and `-z` on `[0, C]` is the dual of the support vector machine; the primal gap is at most `p C τ` by weak duality. |
| C104 | 2 | `Guards`/`GuardsMT` (`Spec/Guard.lean`) only speak about results of `prox` and comparisons of objectives, so the Hoare invariant (`Proofs/Guard.lean`) holds for every scalar type without any law. IEEE instances: `a + ∞` is `∞` or NaN, neither is smaller than a number (from the operation tables of C62); `max(NaN, 0) = 0`. |
| C105 | 2 | Textbook objectives with weights (one and several tasks, repeated samples) and with unpenalised features (`Spec/Weights.lean`); identities with the objective of the transformed data, then the certificate C30 and the convergence C50. Generalises C78. |
| C106 | 2 | `C106_full` (labels 0 and 1 classify) is false: the terms of zero labels are the constant log 2. Negation by a call on two samples with a constant feature, whose existence follows from C50; the certificate C30 forces a nonzero coefficient, which the problem with labels -1 and 1 excludes. `C106_ignored`, `C106_removed`, `C106_never_zero` say what the result is instead; `C106_partial` is the claim for `2y - 1`. |
| C107 partial | 2 | `Spec/Gap.lean`: the duality gap as scikit-learn computes it (divided by n). Weak duality, and from the scores at the stopping point (or from the certificate in floating point, `corr_of_cert`) the bounds of the correlations, hence of the gap. scikit-learn is not modelled: the coefficients of the other solver are arbitrary with a small gap. `C107_full` (coefficients agree, as the tests assert) is false with two equal features; `C107_partial` with curvature. Multi-task Lasso in floating point: `Props/InFloatMT.lean`. |
| C108 | 2 | `Spec/GapLogistic.lean`: dual objective = mean binary entropy (Mathlib's `Real.binEntropy`). Fenchel's inequality for the logistic loss (`entropy_le`, `entropy_eq`), concavity of the entropy for the scaled dual point, then as C107. Labels in [-1, 1]. |
| C109 | 2 | With zero samples each gradient is 0/0 or an empty sum (`Blank`, `Proofs/Empty.lean`); all penalties map it to score 0 at zero (`fmax` ignores NaN), so the run stops at its first test (`solve_null`). |
| C110 partial | 2 | `Spec/Duplicates.lean`. The certificate C30 never used that positions are stored once. Convergence (as C50) when the sums of squares of the stored entries dominate the column norms (opposite signs); a step of at most twice the admissible length still does not increase a convex objective (`dup_step_le`: at most two entries, by Cauchy–Schwarz). `C110_false`: exact trajectories with one feature (`RProb.run_iter`), a cycle of length two and a geometric divergence, for all numbers of iterations and epochs. |
| C111 partial | 1, 2 | `Spec/Missing.lean`: data over the extended reals with NaN, no finiteness anywhere. Two runs are compared step by step (`SameBut`, generic in the scalar type): the step of the feature is NaN, soft thresholding of NaN is 0 and `max` ignores NaN, so its coefficient stays 0 and its violation is 0, as for a zero column. With acceleration an extrapolation over a working set with the feature has a NaN objective and is rejected (`accel_idle`). The elastic net divides 0 by NaN and MCP multiplies with the sign of NaN: the coefficient is NaN after the first epoch and stays so (`poison_solve`; `MT.poison_solve` for the rows of the multi-task estimators, where block soft thresholding scales the row by NaN). `C111_false`: features 1 and NaN, target 5. Sparse arrays (`Spec/MissingSparse.lean`, `quad_csc_sameBut`, `log_csc_sameBut`): the same comparison, with the sums over the stored entries of the column. |
| C112 partial | 1, 2 | `Spec/StoredRows.lean`: two target arrays which agree on the stored rows. Gradients and steps on a CSC array read targets of stored rows only (`quad_init_stored`, `log_grad_stored`); the objective reads all of them, but without acceleration its value is only printed, so the runs are equal step by step (`same_grad_solve`, `MT.same_grad_solve`). `C112_false`: the feature (1, 0), targets (5, NaN): zero by C45 on the dense matrix, not zero by C91 on the sparse one. |
| C113 | 1 | `Spec/Storage.lean`: the entries of a column as a multiset, compared after dropping zeros. Matrix and stored squares are sums over these entries (`same_sum`), and the run depends on nothing else (`solve1_eq`, `solveMT_eq`). `C113_missing_false`: targets (5, NaN), the feature (1, 0) with and without its zero stored: zero by C112_unseen_lasso, not zero by C91. |
| C114 | 2 | `Spec/NoPenalty.lean`: penalties of strength zero, separating directions, misclassified samples. The exact problem behind a call is the same for all of them (`unpenalised_prob`), hence the runs; scores are then absolute partial derivatives, so that C65, the iteration bound of C68 and the certificate of C30 apply. Separable classes: the gradient along the separating direction is a sum of positive terms, at least `m / (2n)` for each misclassified sample. |
| C115 | 2, 3 | `Spec/TrainingErrors.lean`: soft margins of linear classifiers. The certificate of C30 (C63 in floating point) bounds every partial derivative of the loss by `α + tol` (`deriv_bound`), and the derivative along `u` counts the misclassified samples as in C114. Elastic net (`Props/TrainingErrorsEnet.lean`): the ridge part adds `α (1 - ρ) wⱼ` to the derivatives, bounded by C93. |
| C116 | 2, 3 | `Spec/Calibration.lean`: predicted probabilities, indicator columns. The partial derivative of the loss at the indicator of a group is minus the sum of residuals (of labels minus probabilities) of the group over `n`, and is at most `α + tol` as in C115. Elastic net and multi-task Lasso: from the scores at the exit, as in C107. Multi-task Lasso in floating point: `Props/InFloatMT.lean`. |
| C117 | 2, 3 | `Spec/Selected.lean`: selected features, eigenvalue bound. A selected feature has a correlation of at least `α l1_ratio - tol` with the residuals (from the scores at the exit, in floating point from the certificate, as in C107); the sum of the squares of the correlations is at most `L ‖residuals‖² / n`. Multi-task Lasso in floating point: `Props/InFloatMT.lean`. |
| C118 | 2 | No spec of its own (finished fits, correlations). The correlations of the residuals are at most `α + tol` by the scores at the exit (as in C116), so the second fit is null by C91; a selected feature gives the lower bound for `compute_alpha_max`. |
| C119 | 2, 3 | `Spec/Robust.lean`: predictions of new samples. From the bounds of the coefficients in C93 (C62 in floating point) and the duality of the norms. Multi-task Lasso in floating point: `Props/InFloatMT.lean`. |

None of the properties was found inexpressible. `_partial` theorems keep the full statement in view as `def Cxx_full : Prop`
(or in the docstring) and `Cxx_false : ¬ Cxx_full` is proved wherever the code violates it.

Limits worth knowing when reading the theorems:

* Layer 2 results are about the algorithm in exact arithmetic; only C62, C63, C67, parts of C65 (and layer 0/1 theorems) speak about rounding.
  C62/C63 say "for every ε there is a precision"; no explicit precision is computed.
* Multi-task theorems at alpha = 0 (or l1_ratio = 0) are excluded where the NaN of C05 would appear.
* MCP theorems about descent need step ≤ gamma (C03). Convergence (C50) is for convex penalties; C68 covers the MCP (stationarity).
* Acceleration theorems need K ≤ min(ws_start_size, p) (C26).

## 6. Disagreements and bugs found while modelling

1. `anderson_accel` builds `C = UᵀU` (ws×ws) instead of the K×K Gram matrix `U Uᵀ`, then solves a K×K
   system with it: out-of-bounds panic when the working set is smaller than K (C26), and weights which are not Anderson's
   otherwise (C57), harmless only thanks to the objective guard (C29). It also breaks equivariance under sign changes of
   features (C60).
2. `solve_lin_sys` returns `Ok` with a wrong solution for zero leading pivots (C21).
3. `L05::subdiff_distance` is identically zero: the solver always returns zeros (C14).
4. `BlockL1PlusL2::subdiff_distance` misses a square root at zero rows: false optimality certificates (C12, C31), results which
   depend on units (C61) and differ from the multi-task Lasso at l1_ratio = 1 (C37).
5. `BlockMCP::subdiff_distance` ignores the gradient for `0 < ‖W_j‖ < alpha·gamma` (C13). A fit may therefore stop early at a
   point far from stationary, or go on until `max_iterations` at the exact minimiser (C86).
6. `BlockMCParams` does not validate gamma (`MCParams` does) (C40).
7. `block_soft_thresholding(0, 0)` is NaN (C05).
8. `MCP::prox`/`BlockMCP::prox` are wrong for step > gamma, reachable with valid gamma (C03, C07); the objective can then
   increase (C28).
9. NaN targets lead to a silent all-zero fit, of all tasks if one target of one task is missing (C45). NaN alpha passes validation (C40).
10. CSC arrays with duplicate entries get wrong step sizes (C18). The solver then may cycle forever (two equal entries) or diverge (three), see C110; such arrays arise in `scipy.sparse` when a CSC array is built directly from `(data, indices, indptr)` (conversion from a coordinate list adds the duplicates), and the wrapper in /repo/python does not call `sum_duplicates`.
11. Logistic step sizes are too large for labels outside [-1, 1], which are accepted (C17).
12. The public `construct_ws_from_kkt` panics for `ws_start_size > p` when called directly (the solvers clamp the argument
    first); `Solver` with `K = 0` and acceleration panics; an empty `indptr` underflows (C25, C26).
13. Infinite scores evict the support from the working set (C23).
14. Python constructors validate `alpha` where they mean `gamma`/`l1_ratio` (C48); the message of `_check_types` prints alpha's
    value for the other arguments.
15. Python `predict` misbehaves on multi-task models and unfitted estimators (C52).
16. From Python, K = 0, p0 = 0, gamma < 1, l1_ratio ∉ [0,1], alpha = -0.0 reach Rust and end in PanicException instead of
    ValueError (C53).
17. float32 designs are accepted by `check_array` and then rejected with TypeError (C54); 64-bit sparse indices are a
    TypeError in multi-task fits.
18. Sparse single-task fits from Python ignore the number of rows of the matrix (C56).
19. Documentation: `ElasticNetParams` claims a default l1_ratio of 3 (it is 0.5); `Solver` and the estimators have different
    default tolerances.
20. `make_correlated_data(w_true=w)` with `w` of the documented shape `(n_features,)` raises a ValueError for finite `snr` (C66).
21. `Logistic::value` computes `log(1 + exp(-y u))` literally and returns `+inf` for one sample with margin below about `-710` (f64) or `-89` (f32), where the exact loss is finite (C81). The objective printed in verbose mode is then `inf`, and the test of an extrapolated point compares infinities, so the point is rejected.
22. `L21::subdiff_distance` divides by the computed norm of a nonzero row. When the squares of its entries underflow (below about 1e-162 in f64, 1e-23 in f32) the norm is zero and the violation is `inf`, so exactly optimal coefficients are rejected (C83).
23. The constructors of the Python classes check what `set_params` and `fit` do not, and check `alpha` where `l1_ratio` or `gamma` is meant (bug of C48). An `ElasticNet` with `alpha > 1`, or an `MCPRegressor` with `alpha < 1`, reached by `set_params`, can be fitted, but `sklearn.base.clone`, hence `GridSearchCV` or `cross_val_score`, raises a `ValueError` (C84).
24. `fill_random_vector` seeds its generator in every call. The features, coefficients and noise of `generate_random_data` are prefixes of one sequence: the noise equals the first feature, so the data of the examples, of the estimator tests and of the benchmark are noiseless (C94). In `generate_random_data_mtl` the noise repeats the coefficients.
25. `Solver::new()` has tolerance 1e-8 but the estimators 1e-6, though the examples present the two interfaces as equivalent and assert that their results agree up to 1e-4; whether they do depends on the data (C98_lasso_false).
26. `examples/sparse_logistic_regression.rs` uses the real-valued targets of a linear model as labels, and its features have `L_j < 1 / gamma`; both void the descent guarantee, and the result can be worse than zero (C98_logistic_false).
27. The documentation of `Datafit::step_size` asks for the inverse of the Lipschitz constant and promises a line search if there is none. The solver needs the Lipschitz constant and has no line search; a datafit written after the documentation diverges (C100). Losses without Lipschitz gradient (Poisson) are therefore not covered by "any sparse GLM" of the README.
28. The documentation of `Penalty::subdiff_distance` speaks of the distance of the gradient to the subdifferential, but the solver needs that of the negative gradient. A penalty written after the documentation makes the solver stop at wrong points (C102).
29. The documentation of `Logistic` does not say that the labels must be -1 and 1. Labels 0 and 1 are accepted and the samples of class 0 are silently ignored (C106). (Labels beyond [-1, 1], as in the example program, make the step constants wrong: bug 11.)
30. The README lists L0.5 as supported for several tasks; `src/penalties/block_separable/mod.rs` has only the L21, L21 plus L2 and MCP block penalties, and the L0.5 penalty implements the single-task trait only.
31. A fit on a data set without samples succeeds and returns zeros, and `compute_alpha_max` returns NaN without an error (C109); a NaN alpha then passes validation (C40). The Python wrapper rejects such data (C55).
32. No estimator of the Rust crate checks the data for NaN. The Lasso silently ignores a feature which contains NaN; the elastic net, even with `l1_ratio = 1`, MCP and all multi-task estimators (the multi-task Lasso too) return NaN coefficients as the result of a normal fit (C111).
33. A missing target has different effects in the two storage formats. The dense fit is zero whatever the design (C45). The sparse fit ignores a missing target of a sample without stored entries (C112). Storing a zero of that sample explicitly makes the coefficient 0 (C113_missing_false).

## 7. How the theorems are tested

* Every property theorem has an `example` which instantiates its hypotheses on concrete data.
* `seeded/LOG.jsonl`: realistic faults planted in a scratch copy of the model, one per line, with the theorems which
  then fail. When a fault broke a claim but no theorem, the theorem was tightened (recorded in the same line).
* `Verif/Tests/RepoTests.lean` runs the crate's unit tests on the model, with Lean's `Float` (IEEE `f64`) as scalar type: all
  tables of `penalties`, `datafits`, `utils`, `anderson_cd`, `anderson_bcd`, `solvers` and the checks of `estimators`. All
  `assert_eq!` values agree to the last bit. They are tests of the transcription, not proofs. Two observations:
  the single-task solver table which is commented out in `/repo/src/solvers/tests.rs` panics with the default settings
  (bug of C26), and its values come out without acceleration; `kkt_check_tests` asks for a violation of at most `1e-8`
  from fits which are only asked for `1e-6`, and whether it passes depends on the random data.
